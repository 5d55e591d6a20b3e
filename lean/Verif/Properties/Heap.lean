import Verif.Model.Heap
import Verif.Properties.Clients
/-!
# C53: the heap of the test program and of the measurement, and what ramspace writes
-/
namespace Properties
open Model
open Spec.Session (valid)

/-- The library neither faults nor changes the size of the buffer that it signs into. -/
structure Calm (L : Calls) : Prop where
  genKey : ∃ r, L.genKey = .ok r
  initSign : ∀ mem, ∃ c, L.initSign mem = .ok c
  sign : ∀ mem b len c, len ≤ b.length → ∃ r b', L.sign mem b len c = .ok (r, b') ∧ b'.length = b.length
  initVerify : ∀ mem c w, ∃ c', L.initVerify mem c w = .ok c'
  update : ∀ mem sig c, ∃ r, L.update mem sig c = .ok r

/-- The program owns one block, of `n` bytes, besides those of `h0`. -/
def Own (h0 : Heap) (s n : Nat) (h : Heap) : Prop := h0 s = none ∧ ∃ b : Bytes, b.length = n ∧ h = h0.set s b

/-- The heap after a step: with the block, or, if the program gives up, without it. -/
def Step (h0 : Heap) (s n : Nat) (p : Option α × Heap) : Prop := (p.1 = none ∧ p.2 = h0) ∨ (∃ a, p.1 = some a) ∧ Own h0 s n p.2

theorem set_same (h : Heap) (s : Nat) (b : Bytes) : (h.set s b) s = some b := by simp [Heap.set]

theorem Own.load {h0 h : Heap} {s n : Nat} (o : Own h0 s n h) : ∃ b, h.load s = .ok b ∧ b.length = n := by
  obtain ⟨-, b, hb, rfl⟩ := o
  exact ⟨b, by simp [Heap.load, set_same], hb⟩

theorem Own.store {h0 h : Heap} {s n : Nat} (o : Own h0 s n h) (b : Bytes) (hb : b.length = n) : ∃ h', h.store s b = .ok h' ∧ Own h0 s n h' := by
  obtain ⟨h1, b0, -, rfl⟩ := o
  refine ⟨(h0.set s b0).set s b, by simp [Heap.store, set_same], h1, b, hb, ?_⟩
  funext q
  unfold Heap.set
  split <;> rfl

theorem Own.free {h0 h : Heap} {s n : Nat} (o : Own h0 s n h) : h.free s = .ok h0 := by
  obtain ⟨h1, b0, -, rfl⟩ := o
  simp only [Heap.free, set_same]
  congr 1
  funext q
  unfold Heap.erase Heap.set
  split
  · rename_i e; rw [e, h1]
  · rfl

theorem Own.failFree {h0 h : Heap} {s n : Nat} (o : Own h0 s n h) : (Model.failFree s h : C (Option α × Heap)) = .ok (none, h0) := by
  unfold Model.failFree
  rw [o.free]
  rfl

theorem Own.set {h0 : Heap} {s : Nat} (h : h0 s = none) (b : Bytes) : Own h0 s b.length (h0.set s b) := ⟨h, b, rfl, rfl⟩

section
variable {L : Calls} (c : Calm L) {h0 : Heap} {s n : Nat}
include c

theorem onceHeap_ok (mem : Mem) (ctx : Ctx) (w : Bool) (len want want' : Nat) (hl : len ≤ n) {h : Heap} (o : Own h0 s n h) :
    ∃ p, onceHeap L mem ctx w s len want want' h = .ok p ∧ Step h0 s n p := by
  obtain ⟨c1, e1⟩ := c.initVerify mem ctx w
  obtain ⟨b, e2, hb⟩ := o.load
  obtain ⟨⟨r, c2⟩, e4⟩ := c.update mem ((b.drop 0).take len) c1
  unfold onceHeap
  rw [e1, ok_bind, e2, ok_bind, rdSlice_ok (by omega), ok_bind, e4, ok_bind]
  simp only
  split
  · exact ⟨_, o.failFree, .inl ⟨rfl, rfl⟩⟩
  · split
    · exact ⟨_, o.failFree, .inl ⟨rfl, rfl⟩⟩
    · exact ⟨_, rfl, .inr ⟨⟨_, rfl⟩, o⟩⟩

theorem chunkHeap_ok (mem : Mem) (len a : Nat) (ha : 0 < a) (hl : len ≤ n) (fuel i : Nat) (hf : len ≤ fuel + i) (ctx : Ctx) {h : Heap} (o : Own h0 s n h) :
    ∃ p, chunkHeap L mem s len a (fuel + 1) i ctx h = .ok p ∧ Step h0 s n p := by
  induction fuel generalizing i ctx with
  | zero =>
    rw [chunkHeap, if_neg (by omega)]
    exact ⟨_, rfl, .inr ⟨⟨_, rfl⟩, o⟩⟩
  | succ fuel ih =>
    rw [chunkHeap]
    split
    · rename_i hi
      obtain ⟨b, e2, hb⟩ := o.load
      have hk : (if len - i > a then a else len - i) ≤ len - i := by split <;> omega
      obtain ⟨⟨r, c2⟩, e4⟩ := c.update mem ((b.drop i).take (if len - i > a then a else len - i)) ctx
      simp only
      rw [e2, ok_bind, rdSlice_ok (by omega), ok_bind, e4, ok_bind]
      simp only
      split
      · exact ⟨_, o.failFree, .inl ⟨rfl, rfl⟩⟩
      · exact ih (i + a) (by omega) c2
    · exact ⟨_, rfl, .inr ⟨⟨_, rfl⟩, o⟩⟩

theorem fibHeap_ok (mem : Mem) (fill : Nat → Ctx) (len : Nat) (hl : len ≤ n) (fuel a b : Nat) (ha : 0 < a) (hb : 0 < b) (hf : len < fuel + a) {h : Heap} (o : Own h0 s n h) :
    ∃ p, fibHeap L mem fill s len (fuel + 1) a b h = .ok p ∧ Step h0 s n p := by
  induction fuel generalizing a b h with
  | zero =>
    rw [fibHeap, if_neg (by omega)]
    exact ⟨_, rfl, .inr ⟨⟨_, rfl⟩, o⟩⟩
  | succ fuel ih =>
    rw [fibHeap]
    split
    · obtain ⟨c1, e1⟩ := c.initVerify mem (fill b) false
      obtain ⟨⟨p, h1⟩, e2, hp⟩ := chunkHeap_ok c mem len a ha hl len 0 (by omega) c1 o
      rw [e1, ok_bind, e2, ok_bind]
      rcases hp with ⟨q, hq⟩ | ⟨⟨c2, q⟩, hq⟩
      · cases q
        exact ⟨_, rfl, .inl ⟨rfl, hq⟩⟩
      · cases q
        simp only
        split
        · exact ⟨_, hq.failFree, .inl ⟨rfl, rfl⟩⟩
        · exact ih (a + b) a (by omega) ha (by omega) hq
    · exact ⟨_, rfl, .inr ⟨⟨_, rfl⟩, o⟩⟩

omit c in
theorem flipHeap_ok (offset bit : Nat) (ho : offset < n) {h : Heap} (o : Own h0 s n h) : ∃ h', flipHeap s offset bit h = .ok h' ∧ Own h0 s n h' := by
  obtain ⟨b, e, hb⟩ := o.load
  unfold flipHeap
  rw [e, ok_bind, rd_ok (by omega), ok_bind, wr_ok _ (by omega), ok_bind]
  exact o.store _ (by rw [List.length_set]; exact hb)

theorem bitHeap_ok (mem : Mem) (fill : Nat → Ctx) (len offset inc : Nat) (hi : 0 < inc) (hl : len ≤ n) (ho : offset < n) (fuel bit : Nat) (hf : 8 ≤ fuel + bit) {h : Heap} (o : Own h0 s n h) :
    ∃ p, bitHeap L mem fill s len offset inc (fuel + 1) bit h = .ok p ∧ Step h0 s n p := by
  induction fuel generalizing bit h with
  | zero =>
    rw [bitHeap, if_neg (by omega)]
    exact ⟨_, rfl, .inr ⟨⟨_, rfl⟩, o⟩⟩
  | succ fuel ih =>
    rw [bitHeap]
    split
    · obtain ⟨h1, e1, o1⟩ := flipHeap_ok offset bit ho o
      obtain ⟨⟨p, h2⟩, e2, hp⟩ := onceHeap_ok c mem (fill (offset + bit)) false len 0 0 hl o1
      rw [e1, ok_bind, e2, ok_bind]
      rcases hp with ⟨q, hq⟩ | ⟨⟨c2, q⟩, hq⟩
      · cases q
        exact ⟨_, rfl, .inl ⟨rfl, hq⟩⟩
      · cases q
        obtain ⟨h3, e3, o3⟩ := flipHeap_ok offset bit ho hq
        simp only
        rw [e3, ok_bind]
        exact ih (bit + inc) (by omega) o3
    · exact ⟨_, rfl, .inr ⟨⟨_, rfl⟩, o⟩⟩

theorem offsetHeap_ok (mem : Mem) (fill : Nat → Ctx) (len inc inc' : Nat) (hi : 0 < inc) (hi' : 0 < inc') (hl : len ≤ n) (fuel offset : Nat) (hf : len ≤ fuel + offset) {h : Heap} (o : Own h0 s n h) :
    ∃ p, offsetHeap L mem fill s len inc inc' (fuel + 1) offset h = .ok p ∧ Step h0 s n p := by
  induction fuel generalizing offset h with
  | zero =>
    rw [offsetHeap, if_neg (by omega)]
    exact ⟨_, rfl, .inr ⟨⟨_, rfl⟩, o⟩⟩
  | succ fuel ih =>
    rw [offsetHeap]
    split
    · obtain ⟨⟨p, h2⟩, e2, hp⟩ := bitHeap_ok c mem fill len offset inc' hi' hl (by omega) 8 0 (by omega) o
      rw [e2, ok_bind]
      rcases hp with ⟨q, hq⟩ | ⟨⟨c2, q⟩, hq⟩
      · cases q
        exact ⟨_, rfl, .inl ⟨rfl, hq⟩⟩
      · cases q
        exact ih (offset + inc) (by omega) hq
    · exact ⟨_, rfl, .inr ⟨⟨_, rfl⟩, o⟩⟩

omit c in
/-- After a step that may give up. -/
theorem step_then {f : C (Option α × Heap)} {g : Heap → C (Nat × Heap)} (hf : ∃ p, f = .ok p ∧ Step h0 s n p) (hg : ∀ h, Own h0 s n h → ∃ r, g h = .ok (r, h0) ∧ (r = 0 ∨ r = 1)) :
    ∃ r, unlessFailed f g = .ok (r, h0) ∧ (r = 0 ∨ r = 1) := by
  obtain ⟨⟨p, h2⟩, rfl, hp⟩ := hf
  unfold unlessFailed
  rw [ok_bind]
  rcases hp with ⟨q, hq⟩ | ⟨⟨c2, q⟩, hq⟩
  · cases q
    cases hq
    exact ⟨0, rfl, .inl rfl⟩
  · cases q
    exact hg _ hq

theorem lastHeap_ok (mem : Mem) (ctx : Ctx) (len : Nat) (hl : len ≤ n) {h : Heap} (o : Own h0 s n h) : ∃ r, lastHeap L mem ctx s len h = .ok (r, h0) ∧ (r = 0 ∨ r = 1) := by
  refine step_then (onceHeap_ok c mem ctx false len 1 1 hl o) fun h o => ?_
  refine step_then (onceHeap_ok c mem ctx true len 0 0 hl o) fun h o => ?_
  rw [o.free]
  exact ⟨1, rfl, .inr rfl⟩

theorem loopsHeap_ok (fast : Bool) (mem : Mem) (fill : Nat → Ctx) (ctx : Ctx) (len : Nat) (hl : len ≤ n) {h : Heap} (o : Own h0 s n h) :
    ∃ r, loopsHeap L fast mem fill ctx s len h = .ok (r, h0) ∧ (r = 0 ∨ r = 1) := by
  refine step_then (fibHeap_ok c mem fill len hl len 1 1 (by omega) (by omega) (by omega) o) fun h o => ?_
  refine step_then (offsetHeap_ok c mem fill len _ _ (by split <;> omega) (by split <;> omega) hl len 0 (by omega) o) fun h o => ?_
  exact lastHeap_ok c mem ctx len hl o

theorem testsHeap_ok (fast : Bool) (mem : Mem) (fill : Nat → Ctx) (ctx : Ctx) (len : Nat) (hl : len + 1 ≤ n) {h : Heap} (o : Own h0 s n h) :
    ∃ r, testsHeap L fast mem fill ctx s len h = .ok (r, h0) ∧ (r = 0 ∨ r = 1) := by
  refine step_then (onceHeap_ok c mem _ false len 1 1 (by omega) o) fun h o => ?_
  refine step_then (onceHeap_ok c mem _ false (len - 1) 1 0 (by omega) o) fun h o => ?_
  refine step_then (onceHeap_ok c mem _ false (len + 1) 0 0 hl o) fun h o => ?_
  exact loopsHeap_ok c fast mem fill ctx len (by omega) o

/-- C53: the verification test, whatever the library computes (right or wrong), whichever of its checks fails, and whether or not there is memory: it ends without access to
memory that it has not allocated or has already freed, frees nothing twice, and leaves no block behind. Without memory it reports a failure. -/
theorem C53_do_test (fast : Bool) (len : Nat) (alloc : Option Nat) (junk : Bytes) (hj : junk.length = len + 1) (fill : Nat → Ctx) (ctx : Ctx) (h : Heap) (hnew : ∀ p, alloc = some p → h p = none) :
    ∃ r, doTestHeap L fast len alloc junk fill ctx h = .ok (r, h) ∧ (r = 0 ∨ r = 1) ∧ (alloc = none → r = 0) := by
  obtain ⟨⟨ok, mem⟩, e⟩ := c.genKey
  unfold doTestHeap
  rw [e, ok_bind]
  simp only
  split
  · exact ⟨0, rfl, .inl rfl, fun _ => rfl⟩
  · cases alloc with
    | none => exact ⟨0, rfl, .inl rfl, fun _ => rfl⟩
    | some p =>
      have o := Own.set (hnew p rfl) junk
      obtain ⟨c1, e1⟩ := c.initSign mem
      obtain ⟨b, e2, hb⟩ := o.load
      obtain ⟨r, b', e3, hb'⟩ := c.sign mem b (len + 1) c1 (by omega)
      obtain ⟨h1, e4, o1⟩ := o.store b' (by omega)
      simp only
      rw [e1, ok_bind, e2, ok_bind, e3, ok_bind]
      simp only
      rw [e4, ok_bind]
      split
      · rw [o1.free]
        exact ⟨0, rfl, .inl rfl, fun h => by cases h⟩
      · obtain ⟨r, e5, hr⟩ := testsHeap_ok c fast mem fill ctx len (by omega) o1
        exact ⟨r, e5, hr, fun h => by cases h⟩

/-- C53: the same for the measurement of verification; it reports 0 (for a failure) without memory. -/
theorem C53_get_ver_space (len : Nat) (alloc : Option Nat) (junk : Bytes) (hj : junk.length = len) (ctx : Ctx) (space : Nat) (h : Heap) (hnew : ∀ p, alloc = some p → h p = none) :
    ∃ r, getVerSpaceHeap L len alloc junk ctx space h = .ok (r, h) ∧ (r = 0 ∨ r = space) ∧ (alloc = none → r = 0) := by
  obtain ⟨⟨ok, mem⟩, e⟩ := c.genKey
  unfold getVerSpaceHeap sigAndKeyHeap
  rw [e, ok_bind]
  simp only
  cases alloc with
  | none => exact ⟨0, rfl, .inl rfl, fun _ => rfl⟩
  | some p =>
    have o := Own.set (hnew p rfl) junk
    obtain ⟨c1, e1⟩ := c.initSign mem
    obtain ⟨b, e2, hb⟩ := o.load
    obtain ⟨r, b', e3, hb'⟩ := c.sign mem b len c1 (by omega)
    obtain ⟨h1, e4, o1⟩ := o.store b' (by omega)
    obtain ⟨b2, e5, hb2⟩ := o1.load
    obtain ⟨c2, e6⟩ := c.initVerify mem ctx false
    obtain ⟨⟨r2, c3⟩, e7⟩ := c.update mem ((b2.drop 0).take len) c2
    simp only
    rw [e1, ok_bind, e2, ok_bind, e3, ok_bind]
    simp only
    rw [e4, ok_bind, ok_bind]
    simp only
    rw [e6, ok_bind, e5, ok_bind, rdSlice_ok (by omega), ok_bind, e7, ok_bind]
    simp only
    rw [o1.free, ok_bind]
    split
    · exact ⟨0, rfl, .inl rfl, fun h => by cases h⟩
    · exact ⟨space, rfl, .inr rfl, fun h => by cases h⟩

end

/-! ## With the library of the model, the test with the heap is the test of C37 -/

section
variable (E : Env) (mem0 : Mem) (priv pub msg len_msg wrong len_wrong : Nat) (c0 : Ctx) (q : ParamSet) {h0 : Heap} {s : Nat} (hs : h0 s = none)

set_option hygiene false in
local notation "LL" => verifyCallsOf E mem0 priv pub msg len_msg wrong len_wrong c0 q

theorem load_set (b : Bytes) : (h0.set s b).load s = .ok b := by simp [Heap.load, set_same]

theorem store_set (b b' : Bytes) : (h0.set s b).store s b' = .ok (h0.set s b') := by
  simp only [Heap.store, set_same]
  congr 1
  funext p
  unfold Heap.set
  split <;> rfl

include hs in
theorem fail_set (b : Bytes) : (failFree s (h0.set s b) : C (Option α × Heap)) = .ok (none, h0) := (Own.set hs b).failFree

/-- The outcome of a step on the block as a value. -/
def blockStep (h0 : Heap) (s : Nat) : Option Bytes → Option Unit × Heap
  | none => (none, h0)
  | some b => (some (), h0.set s b)

include hs in
theorem once_same (mem : Mem) (ctx : Ctx) (w : Bool) (len want want' : Nat) (b : Bytes) (hl : len ≤ b.length) (r r' : Nat)
    (h : verifyOnce E mem ctx q pub (if w then wrong else msg) (if w then len_wrong else len_msg) (b.take len) = .ok (r, r')) :
    onceHeap LL mem ctx w s len want want' (h0.set s b) = .ok (if want ≠ r ∨ want' ≠ r' then (none, h0) else (some (), h0.set s b)) := by
  unfold onceHeap
  unfold verifyOnce at h
  have e : (verifyCallsOf E mem0 priv pub msg len_msg wrong len_wrong c0 q).initVerify mem ctx w =
      ts_init_verify E mem ctx (if w then wrong else msg) (if w then len_wrong else len_msg) q pub := by cases w <;> rfl
  rw [e, load_set]
  cases h1 : ts_init_verify E mem ctx (if w then wrong else msg) (if w then len_wrong else len_msg) q pub with
  | error e => rw [h1] at h; cases h
  | ok c1 =>
    rw [h1, ok_bind] at h
    rw [ok_bind, ok_bind, rdSlice_ok (by omega), ok_bind, List.drop_zero, show (LL).update mem (b.take len) c1 = ts_update_verify E mem (b.take len) c1 from rfl]
    cases h2 : ts_update_verify E mem (b.take len) c1 with
    | error e => rw [h2] at h; cases h
    | ok p =>
      obtain ⟨r1, c2⟩ := p
      rw [h2, ok_bind] at h
      rw [ok_bind]
      simp only [Except.ok.injEq, Prod.mk.injEq] at h
      obtain ⟨rfl, rfl⟩ := h
      simp only [fail_set hs, show (LL).verify = ts_verify from rfl]
      by_cases h3 : want = r1
      · by_cases h4 : want' = ts_verify c2
        · rw [if_neg (by simp [h3]), if_neg (by simp [h4]), if_neg (by simp [h3, h4])]
        · rw [if_neg (by simp [h3]), if_pos h4, if_pos (.inr h4)]
      · rw [if_pos h3, if_pos (.inl h3)]

/-- The outcome of a step that only reads the block. -/
def readStep (h0 : Heap) (s : Nat) (b : Bytes) : Option α → Option α × Heap
  | none => (none, h0)
  | some a => (some a, h0.set s b)

include hs in
theorem chunk_same (mem : Mem) (b : Bytes) (len a fuel i : Nat) (ctx : Ctx) (o : Option Ctx) (h : chunkLoop E mem b len a fuel i ctx = .ok o) :
    chunkHeap LL mem s len a fuel i ctx (h0.set s b) = .ok (readStep h0 s b o) := by
  induction fuel generalizing i ctx with
  | zero => cases h
  | succ fuel ih =>
    rw [chunkLoop] at h
    rw [chunkHeap]
    split
    · rename_i hi
      rw [if_pos hi] at h
      simp only at h ⊢
      rw [load_set, ok_bind]
      cases h1 : rdSlice b i (if len - i > a then a else len - i) with
      | error e => rw [h1] at h; cases h
      | ok piece =>
        rw [h1, ok_bind] at h
        rw [ok_bind, show (LL).update mem piece ctx = ts_update_verify E mem piece ctx from rfl]
        cases h2 : ts_update_verify E mem piece ctx with
        | error e => rw [h2] at h; cases h
        | ok p =>
          obtain ⟨r, c2⟩ := p
          rw [h2, ok_bind] at h
          rw [ok_bind]
          simp only at h ⊢
          split
          · rename_i hr
            rw [if_pos hr] at h
            cases h
            exact fail_set hs b
          · rename_i hr
            rw [if_neg hr] at h
            exact ih _ _ h
    · rename_i hi
      rw [if_neg hi] at h
      cases h
      rfl

/-- What a loop that returns 0 or 1 leaves. -/
def flagStep (h0 : Heap) (s : Nat) (b : Bytes) (r : Nat) : Option Unit × Heap := if r = 0 then (none, h0) else (some (), h0.set s b)

include hs in
theorem fib_same (mem : Mem) (fill : Nat → Ctx) (bl : Bytes) (len fuel a b r : Nat) (h : fibLoop E mem fill q pub msg len_msg bl len fuel a b = .ok r) :
    fibHeap LL mem fill s len fuel a b (h0.set s bl) = .ok (flagStep h0 s bl r) := by
  induction fuel generalizing a b with
  | zero => cases h
  | succ fuel ih =>
    rw [fibLoop] at h
    rw [fibHeap]
    split
    · rename_i hi
      rw [if_pos hi] at h
      rw [show (LL).initVerify mem (fill b) false = ts_init_verify E mem (fill b) msg len_msg q pub from rfl]
      cases h1 : ts_init_verify E mem (fill b) msg len_msg q pub with
      | error e => rw [h1] at h; cases h
      | ok c1 =>
        rw [h1, ok_bind] at h
        rw [ok_bind]
        cases h2 : chunkLoop E mem bl len a (len + 1) 0 c1 with
        | error e => rw [h2] at h; cases h
        | ok o =>
          rw [h2, ok_bind] at h
          rw [chunk_same E mem0 priv pub msg len_msg wrong len_wrong c0 q hs mem bl len a _ _ c1 o h2, ok_bind]
          cases o with
          | none => cases h; rfl
          | some c2 =>
            simp only [readStep] at h ⊢
            rw [show (LL).verify = ts_verify from rfl]
            split
            · rename_i hr
              rw [if_pos hr] at h
              cases h
              exact fail_set hs bl
            · rename_i hr
              rw [if_neg hr] at h
              exact ih _ _ h
    · rename_i hi
      rw [if_neg hi] at h
      cases h
      rfl

theorem flip_same (offset bit : Nat) (b : Bytes) : flipHeap s offset bit (h0.set s b) =
    (rd b offset >>= fun v => wr b offset (v ^^^ UInt8.ofNat (1 <<< bit)) >>= fun b' => (.ok (h0.set s b') : C Heap)) := by
  unfold flipHeap
  rw [load_set, ok_bind]
  cases rd b offset with
  | error e => rfl
  | ok v =>
    rw [ok_bind, ok_bind]
    cases wr b offset (v ^^^ UInt8.ofNat (1 <<< bit)) with
    | error e => rfl
    | ok b' => rw [ok_bind, ok_bind, store_set]

theorem wr_length {b b' : Bytes} {i : Nat} {v : UInt8} (h : wr b i v = .ok b') : b'.length = b.length := by
  unfold wr at h
  split at h
  · cases h; exact List.length_set ..
  · cases h

include hs in
theorem bit_same (mem : Mem) (fill : Nat → Ctx) (len offset inc fuel bit : Nat) (b : Bytes) (hl : len ≤ b.length) (o : Option Bytes)
    (h : bitLoop E mem fill q pub msg len_msg len offset inc fuel bit b = .ok o) :
    bitHeap LL mem fill s len offset inc fuel bit (h0.set s b) = .ok (blockStep h0 s o) ∧ ∀ b', o = some b' → b'.length = b.length := by
  induction fuel generalizing bit b with
  | zero => cases h
  | succ fuel ih =>
    rw [bitLoop] at h
    rw [bitHeap]
    split
    · rename_i hi
      rw [if_pos hi] at h
      rw [flip_same]
      cases h1 : rd b offset with
      | error e => rw [h1] at h; cases h
      | ok v =>
        rw [h1, ok_bind] at h
        rw [ok_bind]
        cases h2 : wr b offset (v ^^^ UInt8.ofNat (1 <<< bit)) with
        | error e => rw [h2] at h; cases h
        | ok b1 =>
          have hb1 := wr_length h2
          rw [h2, ok_bind, rdSlice_ok (by omega), ok_bind, List.drop_zero] at h
          rw [ok_bind, ok_bind]
          cases h3 : verifyOnce E mem (fill (offset + bit)) q pub msg len_msg (b1.take len) with
          | error e => rw [h3] at h; cases h
          | ok p =>
            obtain ⟨r, r'⟩ := p
            rw [h3, ok_bind] at h
            rw [once_same E mem0 priv pub msg len_msg wrong len_wrong c0 q hs mem _ false len 0 0 b1 (by omega) r r' h3, ok_bind]
            simp only at h
            split at h
            · rename_i hr
              rw [if_pos hr]
              cases h
              exact ⟨rfl, by simp⟩
            · rename_i hr
              rw [if_neg hr]
              simp only
              rw [flip_same]
              cases h4 : rd b1 offset with
              | error e => rw [h4] at h; cases h
              | ok v1 =>
                rw [h4, ok_bind] at h
                rw [ok_bind]
                cases h5 : wr b1 offset (v1 ^^^ UInt8.ofNat (1 <<< bit)) with
                | error e => rw [h5] at h; cases h
                | ok b2 =>
                  have hb2 := wr_length h5
                  rw [h5, ok_bind] at h
                  rw [ok_bind, ok_bind]
                  have := ih _ b2 (by omega) h
                  exact ⟨this.1, fun b' e => (this.2 b' e).trans (hb2.trans hb1)⟩
    · rename_i hi
      rw [if_neg hi] at h
      cases h
      exact ⟨rfl, fun b' e => by cases e; rfl⟩

include hs in
theorem offset_same (mem : Mem) (fill : Nat → Ctx) (len inc inc' fuel offset : Nat) (b : Bytes) (hl : len ≤ b.length) (o : Option Bytes)
    (h : flipLoop E mem fill q pub msg len_msg len inc inc' fuel offset b = .ok o) :
    offsetHeap LL mem fill s len inc inc' fuel offset (h0.set s b) = .ok (blockStep h0 s o) ∧ ∀ b', o = some b' → b'.length = b.length := by
  induction fuel generalizing offset b with
  | zero => cases h
  | succ fuel ih =>
    rw [flipLoop] at h
    rw [offsetHeap]
    split
    · rename_i hi
      rw [if_pos hi] at h
      cases h1 : bitLoop E mem fill q pub msg len_msg len offset inc' 9 0 b with
      | error e => rw [h1] at h; cases h
      | ok o1 =>
        rw [h1, ok_bind] at h
        obtain ⟨e1, e2⟩ := bit_same E mem0 priv pub msg len_msg wrong len_wrong c0 q hs mem fill len offset inc' 9 0 b hl o1 h1
        rw [e1, ok_bind]
        cases o1 with
        | none => cases h; exact ⟨rfl, by simp⟩
        | some b1 =>
          have hb := e2 b1 rfl
          have := ih _ b1 (by omega) h
          exact ⟨this.1, fun b' e => (this.2 b' e).trans hb⟩
    · rename_i hi
      rw [if_neg hi] at h
      cases h
      exact ⟨rfl, fun b' e => by cases e; rfl⟩

include hs in
theorem last_same (fast : Bool) (mem : Mem) (fill : Nat → Ctx) (b : Bytes) (len : Nat) (hl : len ≤ b.length) (r : Nat)
    (h : negativeTests E fast mem fill c0 q pub msg len_msg wrong len_wrong b len = .ok r) :
    (unlessFailed (offsetHeap LL mem fill s len (if fast then 5 else 1) (if fast then 8 else 1) (len + 1) 0 (h0.set s b)) fun h => lastHeap LL mem c0 s len h) = .ok (r, h0) := by
  unfold negativeTests at h
  simp only at h
  cases h1 : flipLoop E mem fill q pub msg len_msg len (if fast then 5 else 1) (if fast then 8 else 1) (len + 1) 0 b with
  | error e => rw [h1] at h; cases h
  | ok o =>
    rw [h1, ok_bind] at h
    obtain ⟨e1, e2⟩ := offset_same E mem0 priv pub msg len_msg wrong len_wrong c0 q hs mem fill len _ _ _ _ b hl o h1
    rw [e1, unlessFailed, ok_bind]
    cases o with
    | none => cases h; rfl
    | some b1 =>
      have hb := e2 b1 rfl
      simp only [blockStep] at h ⊢
      rw [rdSlice_ok (by omega), ok_bind, List.drop_zero] at h
      unfold lastHeap
      cases h2 : verifyOnce E mem c0 q pub msg len_msg (b1.take len) with
      | error e => rw [h2] at h; cases h
      | ok p =>
        obtain ⟨r1, r1'⟩ := p
        rw [h2, ok_bind] at h
        rw [once_same E mem0 priv pub msg len_msg wrong len_wrong c0 q hs mem _ false len 1 1 b1 (by omega) r1 r1' h2, unlessFailed, ok_bind]
        simp only at h
        split at h
        · rename_i hr
          rw [if_pos hr]
          cases h
          rfl
        · rename_i hr
          rw [if_neg hr]
          simp only
          cases h3 : verifyOnce E mem c0 q pub wrong len_wrong (b1.take len) with
          | error e => rw [h3] at h; cases h
          | ok p =>
            obtain ⟨r2, r2'⟩ := p
            rw [h3, ok_bind] at h
            rw [once_same E mem0 priv pub msg len_msg wrong len_wrong c0 q hs mem _ true len 0 0 b1 (by omega) r2 r2' h3, unlessFailed, ok_bind]
            simp only at h
            split at h
            · rename_i hr
              rw [if_pos hr]
              cases h
              rfl
            · rename_i hr
              rw [if_neg hr]
              cases h
              simp only
              rw [(Own.set hs b1).free, ok_bind]

include hs in
theorem tests_same (fast : Bool) (mem : Mem) (fill : Nat → Ctx) (b : Bytes) (len : Nat) (hl : len + 1 ≤ b.length) (r : Nat)
    (h : (positiveTests E mem fill q pub msg len_msg b len >>= fun r =>
      if r = 0 then .ok 0 else negativeTests E fast mem fill c0 q pub msg len_msg wrong len_wrong b len) = .ok r) :
    testsHeap LL fast mem fill c0 s len (h0.set s b) = .ok (r, h0) := by
  have step : ∀ (k : Nat) (l want want' : Nat) (X : C Nat) (g : Heap → C (Nat × Heap)), l ≤ b.length → ∀ r, ((do
      let (r, r') ← verifyOnce E mem (fill k) q pub msg len_msg (← rdSlice b 0 l)
      if want ≠ r ∨ want' ≠ r' then .ok 0 else X) >>= fun r => if r = 0 then .ok 0 else negativeTests E fast mem fill c0 q pub msg len_msg wrong len_wrong b len) = .ok r →
      ((X >>= fun r => if r = 0 then .ok 0 else negativeTests E fast mem fill c0 q pub msg len_msg wrong len_wrong b len) = .ok r → g (h0.set s b) = .ok (r, h0)) →
      unlessFailed (onceHeap LL mem (fill k) false s l want want' (h0.set s b)) g = .ok (r, h0) := by
    intro k l want want' X g hl r h hg
    rw [rdSlice_ok (by omega), ok_bind, List.drop_zero] at h
    cases h2 : verifyOnce E mem (fill k) q pub msg len_msg (b.take l) with
    | error e => rw [h2] at h; cases h
    | ok p =>
      obtain ⟨r1, r1'⟩ := p
      rw [h2, ok_bind] at h
      rw [once_same E mem0 priv pub msg len_msg wrong len_wrong c0 q hs mem _ false l want want' b hl r1 r1' h2, unlessFailed, ok_bind]
      simp only at h
      split at h
      · rename_i hr
        rw [if_pos hr]
        cases h
        rfl
      · rename_i hr
        rw [if_neg hr]
        exact hg h
  unfold testsHeap
  unfold positiveTests at h
  refine step _ _ _ _ _ _ (by omega) r h fun h => ?_
  refine step _ _ _ _ _ _ (by omega) r h fun h => ?_
  refine step _ _ _ _ _ _ (by omega) r h fun h => ?_
  unfold loopsHeap
  cases h1 : fibLoop E mem fill q pub msg len_msg b len (len + 1) 1 1 with
  | error e => rw [h1] at h; cases h
  | ok v =>
    rw [h1, ok_bind] at h
    rw [fib_same E mem0 priv pub msg len_msg wrong len_wrong c0 q hs mem fill b len _ _ _ v h1, unlessFailed, ok_bind, flagStep]
    split at h
    · rename_i hr
      rw [if_pos hr]
      cases h
      rfl
    · rename_i hr
      rw [if_neg hr]
      exact last_same E mem0 priv pub msg len_msg wrong len_wrong c0 q hs fast mem fill b len (by omega) r h

end

/-- The buffer keeps its size when `do_test` signs into it. -/
theorem test_sign (R : Room) (x : PsName) (hx : supported R.E.cfg x = true) (c : Ctx) (hc : Shape R.E.cfg c) :
    ∃ mem rq c1 rq1 b c2, ts_gen_key R.E R.mem (some R.priv) (some R.pub) (some (ps R.E.cfg x)) (some local_rand) = .ok (1, mem, rq) ∧
      ts_init_sign R.E mem c R.msg R.M.length (ps R.E.cfg x) R.priv none = .ok (c1, rq1) ∧
      ts_sign R.E mem (R.E.local 102 (ts_size_signature (ps R.E.cfg x) + 1)) (ts_size_signature (ps R.E.cfg x) + 1) c1 = .ok (ts_size_signature (ps R.E.cfg x), b, c2) ∧
      b.length = ts_size_signature (ps R.E.cfg x) + 1 := by
  have hb : (testBytes x).length = 3 * x.P.n := length_localLoop _ _
  obtain ⟨mem', rq, e, k1, -, hM, -⟩ := R.key x hx (some R.pub) (.inr rfl) local_rand (local_rand_ok _) rfl
  have k1 : mem'.Has R.priv (testKey x) := k1
  obtain ⟨c1, rq1, e1, r1⟩ := startSign (b := testBytes x) hx hb k1 hM R.msgLen hc none (fun f h => by cases h)
  have r1 : Rel R.E (.signing x R.priv (testKey x)) (.signing (testSig x R.M)) c1 := r1
  have hls : (testSig x R.M).length = x.P.sigBytes := length_stdSig x _ _ R.M hb
  rw [size_eq]
  have hloc : (R.E.local 102 (x.P.sigBytes + 1)).length = x.P.sigBytes + 1 := by unfold Env.local; rw [List.length_map, List.length_range]
  obtain ⟨c2, e2, -⟩ := sign_one k1 r1 (R.E.local 102 (x.P.sigBytes + 1)) (x.P.sigBytes + 1) (by rw [hloc])
  have htk : (testSig x R.M).take (x.P.sigBytes + 1) = testSig x R.M := List.take_of_length_le (by omega)
  rw [htk, hls] at e2
  exact ⟨mem', rq, c1, rq1, _, c2, e, e1, e2, by rw [List.length_append, List.length_drop, hloc, hls]; omega⟩

/-- C53: with the library of this repository, and memory, the test with the heap has the result of C37. -/
theorem C53_same (R : Room) (x : PsName) (hx : supported R.E.cfg x = true) (wrong : Nat) (W : Bytes) (hW : R.mem.Has wrong W) (hWl : W.length < 2 ^ 60) (hWp : R.E.cfg.Fits wrong W.length)
    (a1 : Disj R.priv 128 wrong W.length) (a2 : Disj R.pub 64 wrong W.length) (fill : Nat → Ctx) (hfill : ∀ b, Shape R.E.cfg (fill b)) (c : Ctx) (hc : Shape R.E.cfg c) (fast : Bool)
    (h : Heap) (s : Nat) (hs : h s = none) :
    ∃ r, doTestHeap (verifyCallsOf R.E R.mem R.priv R.pub R.msg R.M.length wrong W.length c (ps R.E.cfg x)) fast (ts_size_signature (ps R.E.cfg x)) (some s)
        (R.E.local 102 (ts_size_signature (ps R.E.cfg x) + 1)) fill c h = .ok (r, h) ∧
      do_test R.E true fast 1 R.mem R.priv R.pub R.msg R.M.length wrong W.length fill c (ps R.E.cfg x) = .ok r := by
  obtain ⟨r, e, -, -⟩ := C37_do_test R x hx wrong W hW hWl hWp a1 a2 fill hfill c hc fast
  refine ⟨r, ?_, e⟩
  have e' : do_test_body R.E fast R.mem R.priv R.pub R.msg R.M.length wrong W.length fill c (ps R.E.cfg x) = .ok r := by
    rw [← e]
    unfold do_test
    simp
  clear e
  obtain ⟨m0, rq0, k1, rq2, b0, k2, f1, f2, f3, f4⟩ := test_sign R x hx c hc
  generalize hlen : ts_size_signature (ps R.E.cfg x) = len at *
  unfold do_test_body at e'
  unfold doTestHeap
  simp only [hlen] at e'
  have g : (verifyCallsOf R.E R.mem R.priv R.pub R.msg R.M.length wrong W.length c (ps R.E.cfg x)).genKey =
      (ts_gen_key R.E R.mem (some R.priv) (some R.pub) (some (ps R.E.cfg x)) (some local_rand) >>= fun p => .ok (p.1, p.2.1)) := rfl
  rw [g]
  cases h1 : ts_gen_key R.E R.mem (some R.priv) (some R.pub) (some (ps R.E.cfg x)) (some local_rand) with
  | error e => rw [h1] at e'; cases e'
  | ok p =>
    obtain ⟨ok, mem, rq⟩ := p
    rw [h1, ok_bind] at e'
    rw [ok_bind, ok_bind]
    simp only at e' ⊢
    split
    · rename_i h0
      rw [if_pos h0] at e'
      cases e'
      rfl
    · rename_i h0
      rw [if_neg h0] at e'
      have g2 : (verifyCallsOf R.E R.mem R.priv R.pub R.msg R.M.length wrong W.length c (ps R.E.cfg x)).initSign mem =
          (ts_init_sign R.E mem c R.msg R.M.length (ps R.E.cfg x) R.priv none >>= fun p => .ok p.1) := rfl
      rw [g2]
      cases h2 : ts_init_sign R.E mem c R.msg R.M.length (ps R.E.cfg x) R.priv none with
      | error e => rw [h2] at e'; cases e'
      | ok p =>
        obtain ⟨c1, rq1⟩ := p
        rw [h2, ok_bind] at e'
        rw [ok_bind, ok_bind, load_set, ok_bind]
        simp only at e'
        have g3 : (verifyCallsOf R.E R.mem R.priv R.pub R.msg R.M.length wrong W.length c (ps R.E.cfg x)).sign mem (R.E.local 102 (len + 1)) (len + 1) c1 =
          (ts_sign R.E mem (R.E.local 102 (len + 1)) (len + 1) c1 >>= fun p => .ok (p.1, p.2.1)) := rfl
        rw [g3]
        cases h3 : ts_sign R.E mem (R.E.local 102 (len + 1)) (len + 1) c1 with
        | error e => rw [h3] at e'; cases e'
        | ok p =>
          obtain ⟨r1, b, c2⟩ := p
          rw [h3, ok_bind] at e'
          rw [ok_bind, ok_bind, store_set]
          simp only at e' ⊢
          rw [ok_bind]
          split
          · rename_i h4
            rw [if_pos h4] at e'
            cases e'
            rw [(Own.set hs b).free]
            rfl
          · rename_i h4
            rw [if_neg h4] at e'
            exact tests_same R.E R.mem R.priv R.pub R.msg R.M.length wrong W.length c (ps R.E.cfg x) hs fast mem fill b len (by
              rw [f1] at h1; cases h1
              rw [f2] at h2; cases h2
              rw [f3] at h3; cases h3
              omega) r e'

/-- C53: with the library of this repository, and memory, the measurement of verification always reports what was measured, and leaves no block behind. -/
theorem C53_measured (R : Room) (x : PsName) (hx : supported R.E.cfg x = true) (c c' : Ctx) (hc : Shape R.E.cfg c) (hc' : Shape R.E.cfg c') (h : Heap) (s : Nat) (hs : h s = none)
    (junk : Bytes) (hj : junk.length = ts_size_signature (ps R.E.cfg x)) (space : Nat) :
    getVerSpaceHeap (spaceCallsOf R.E R.mem R.priv R.pub R.msg R.M.length c (ps R.E.cfg x)) (ts_size_signature (ps R.E.cfg x)) (some s) junk c' space h = .ok (space, h) := by
  obtain ⟨mem', rq, e, k1, k2, hM, -⟩ := R.key x hx (some R.pub) (.inr rfl) fake_rand (fake_rand_ok _) rfl
  have hb : (fake_rand (3 * x.P.n)).2.length = 3 * x.P.n := length_countdown _
  obtain ⟨c1, rq1, e1, r1⟩ := startSign hx hb k1 hM R.msgLen hc (some fake_rand) (fun f h => by cases h; exact fake_rand_ok _)
  have g1 : (spaceCallsOf R.E R.mem R.priv R.pub R.msg R.M.length c (ps R.E.cfg x)).genKey = .ok (1, mem') := by
    show (ts_gen_key R.E R.mem (some R.priv) (some R.pub) (some (ps R.E.cfg x)) (some fake_rand) >>= fun p => .ok (p.1, p.2.1)) = _
    rw [e, ok_bind]
  have g2 : (spaceCallsOf R.E R.mem R.priv R.pub R.msg R.M.length c (ps R.E.cfg x)).initSign mem' = .ok c1 := by
    show (ts_init_sign R.E mem' c R.msg R.M.length (ps R.E.cfg x) R.priv (some fake_rand) >>= fun p => .ok p.1) = _
    rw [e1, ok_bind]
  obtain ⟨c2, e2, -⟩ := sign_one k1 r1 junk (ts_size_signature (ps R.E.cfg x)) (by omega)
  have hls := length_stdSig x (fake_rand (3 * x.P.n)).2 (optRand (some fake_rand) (skPkSeed x.P.n (standardKey x (fake_rand (3 * x.P.n)).2))) R.M hb
  rw [← size_eq R.E.cfg x] at hls
  have hv : valid x.inst _ R.M _ = true :=
    standard_round_trip x (fake_rand (3 * x.P.n)).2 (optRand (some fake_rand) (skPkSeed x.P.n (standardKey x (fake_rand (3 * x.P.n)).2))) R.M hb
  change valid x.inst _ R.M (stdSig x _ _ _) = true at hv
  generalize hσ : stdSig x (fake_rand (3 * x.P.n)).2 (optRand (some fake_rand) (skPkSeed x.P.n (standardKey x (fake_rand (3 * x.P.n)).2))) R.M = σ at *
  have htk : σ.take (ts_size_signature (ps R.E.cfg x)) = σ := List.take_of_length_le (Nat.le_of_eq hls)
  rw [htk, hls, List.drop_eq_nil_of_le (Nat.le_of_eq hj), List.append_nil] at e2
  have g3 : (spaceCallsOf R.E R.mem R.priv R.pub R.msg R.M.length c (ps R.E.cfg x)).sign mem' junk (ts_size_signature (ps R.E.cfg x)) c1 = .ok (ts_size_signature (ps R.E.cfg x), σ) := by
    show (ts_sign R.E mem' junk (ts_size_signature (ps R.E.cfg x)) c1 >>= fun p => .ok (p.1, p.2.1)) = _
    rw [e2, ok_bind]
  have K := checks (x := x) hx hb (k2 rfl) hM R.msgLen R.msgPtr
  obtain ⟨c3, e3, r3⟩ := K.start hc'
  obtain ⟨c4, e4, r4⟩ := update_ok K.hasKey (fun _ => hM) r3 σ
  have g4 : (spaceCallsOf R.E R.mem R.priv R.pub R.msg R.M.length c (ps R.E.cfg x)).initVerify mem' c' false = .ok c3 := e3
  have hver : ts_verify c4 = 1 := by rw [verify_ok r4, List.nil_append, if_pos hv]
  unfold getVerSpaceHeap sigAndKeyHeap
  rw [g1, ok_bind]
  simp only
  rw [g2, ok_bind, load_set, ok_bind, g3, ok_bind]
  simp only
  rw [store_set, ok_bind, ok_bind]
  simp only
  rw [g4, ok_bind, load_set, ok_bind, rdSlice_ok (by omega), ok_bind, List.drop_zero, List.take_of_length_le (Nat.le_of_eq hls)]
  rw [show (spaceCallsOf R.E R.mem R.priv R.pub R.msg R.M.length c (ps R.E.cfg x)).update mem' σ c3 = ts_update_verify R.E mem' σ c3 from rfl, e4, ok_bind]
  simp only
  rw [(Own.set hs σ).free, ok_bind, show (spaceCallsOf R.E R.mem R.priv R.pub R.msg R.M.length c (ps R.E.cfg x)).verify c4 = ts_verify c4 from rfl, hver]
  rfl

/-! ## What ramspace writes -/

/-- The words of a text: what is between blanks and ends of lines. -/
def words (t : List Char) : List (List Char) := (t.splitOnP fun c => c == ' ' || c == '\n').filter (· ≠ [])

theorem words_sep (w t : List Char) (c : Char) (hc : c = ' ' ∨ c = '\n') (hw : ∀ x ∈ w, x ≠ ' ' ∧ x ≠ '\n') (h0 : w ≠ []) : words (w ++ c :: t) = w :: words t := by
  unfold words
  rw [List.splitOnP_append_cons_of_forall_mem (by intro x hx; have := hw x hx; simp [this.1, this.2]) c (by rcases hc with rfl | rfl <;> rfl),
    List.filter_cons_of_pos (by simpa using h0)]

theorem words_skip (t : List Char) (n : Nat) : words (List.replicate n ' ' ++ t) = words t := by
  induction n with
  | zero => rfl
  | succ n ih =>
    rw [List.replicate_succ, List.cons_append, ← ih]
    show words ([] ++ ' ' :: _) = _
    unfold words
    rw [List.splitOnP_append_cons_of_forall_mem (by simp) ' ' rfl]
    rfl

theorem digits_clean (n : Nat) : ∀ x ∈ Nat.toDigits 10 n, x ≠ ' ' ∧ x ≠ '\n' := by
  intro x hx
  have := Nat.isDigit_of_mem_toDigits (by decide) (by decide) hx
  constructor <;> (rintro rfl; exact absurd this (by decide))

theorem fmt5_list (n : Nat) : (fmt5 n).toList = List.replicate (5 - (Nat.toDigits 10 n).length) ' ' ++ Nat.toDigits 10 n := by
  have : toString n = String.ofList (Nat.toDigits 10 n) := rfl
  unfold fmt5
  rw [this]
  simp

theorem words_fmt5 (n k : Nat) (t : List Char) (c : Char) (hc : c = ' ' ∨ c = '\n') :
    words (List.replicate k ' ' ++ (fmt5 n).toList ++ c :: t) = Nat.toDigits 10 n :: words t := by
  rw [fmt5_list, List.append_assoc, words_skip, List.append_assoc, words_skip, words_sep _ _ c hc (digits_clean n) Nat.toDigits_ne_nil]

/-- The name of a parameter set as it is in the program, tiny_sphincs.h and ramspace.py. -/
def progName (x : PsName) : String := "ts_ps_" ++ setName x

theorem progName_clean (x : PsName) : (∀ c ∈ (progName x).toList, c ≠ ' ' ∧ c ≠ '\n') ∧ (progName x).toList ≠ [] ∧ (progName x).toList.length ≤ 23 := by
  cases x <;> simp [progName, setName]

/-- C53: the line that ramspace appends for a parameter set has the name of the set and the four numbers in it, as words, in this order, whatever the numbers are; for a verification that could
not be measured, the last word says so instead. -/
theorem C53_line (x : PsName) (ctx keygen sig ver : Nat) :
    words (ramspaceLine (progName x) ctx keygen sig ver).toList =
      [(progName x).toList, (toString ctx).toList, (toString keygen).toList, (toString sig).toList, if ver = 0 then "*FAILED*".toList else (toString ver).toList] := by
  obtain ⟨h1, h2, h3⟩ := progName_clean x
  have hd : ∀ n : Nat, (toString n).toList = Nat.toDigits 10 n := fun n => String.toList_ofList
  generalize progName x = name at *
  simp only [hd]
  have hl : name.length = name.toList.length := String.length_toList.symm
  have hname : (fmtName name).toList = name.toList ++ ' ' :: List.replicate (24 - name.toList.length) ' ' := by
    unfold fmtName
    rw [String.toList_ofList, List.take_of_length_le (by omega), hl, ← List.replicate_succ, show 24 - name.toList.length + 1 = 25 - name.toList.length by omega]
  have s5 : "     ".toList = ' ' :: List.replicate 4 ' ' := by simp
  have s8 : "        ".toList = ' ' :: List.replicate 7 ' ' := by simp
  have sf : "     *FAILED*".toList = ' ' :: (List.replicate 4 ' ' ++ "*FAILED*".toList) := by simp
  have sn : "\n".toList = '\n' :: [] := by simp
  have w0 : words [] = [] := rfl
  have e : ∀ (n : Nat) (t : List Char), words ((fmt5 n).toList ++ ' ' :: t) = Nat.toDigits 10 n :: words t := fun n t => by
    have h := words_fmt5 n 0 t ' ' (.inl rfl)
    rwa [List.replicate_zero, List.nil_append] at h
  have hf : words ("*FAILED*".toList ++ '\n' :: []) = ["*FAILED*".toList] := by
    exact (words_sep _ _ '\n' (.inr rfl) (by simp) (by simp)).trans (by rw [w0])
  unfold ramspaceLine
  simp only [String.toList_append]
  rw [s5, s8, sn, hname]
  simp only [List.append_assoc, List.cons_append]
  rw [words_sep _ _ ' ' (.inl rfl) h1 h2, words_skip, e, words_skip, e, words_skip]
  by_cases hv : ver = 0
  · rw [if_pos hv, if_pos hv, sf, List.cons_append, e, List.append_assoc, words_skip, hf]
  · rw [if_neg hv, if_neg hv, String.toList_append, s5, List.cons_append, List.cons_append, e, words_fmt5 ver 4 [] '\n' (.inr rfl), w0]

theorem drop_prefix {l₁ l₂ : List Char} {n : Nat} (h : l₁.length = n) : (l₁ ++ l₂).drop n = l₂ := by subst h; exact List.drop_left

theorem take_prefix {l₁ l₂ : List Char} {n : Nat} (h : l₁.length = n) : (l₁ ++ l₂).take n = l₁ := by subst h; exact List.take_left

/-- C53: the columns are aligned: with numbers below 100000 every line has the same length, and each number ends in its column (30, 40, 53 and 63). -/
theorem C53_columns (x : PsName) (ctx keygen sig ver : Nat) (h1 : ctx < 100000) (h2 : keygen < 100000) (h3 : sig < 100000) (h4 : ver < 100000) (h5 : ver ≠ 0) :
    let l := (ramspaceLine (progName x) ctx keygen sig ver).toList
    l.length = 64 ∧ words (l.take 25) = [(progName x).toList] ∧ words ((l.drop 25).take 5) = [(toString ctx).toList] ∧ words ((l.drop 35).take 5) = [(toString keygen).toList] ∧
      words ((l.drop 48).take 5) = [(toString sig).toList] ∧ words ((l.drop 58).take 5) = [(toString ver).toList] := by
  have hd : ∀ n : Nat, (toString n).toList = Nat.toDigits 10 n := fun n => String.toList_ofList
  have hlen : ∀ n, n < 100000 → (fmt5 n).toList.length = 5 := by
    intro n hn
    have h := (Nat.length_toDigits_le_iff (b := 10) (k := 5) (n := n) (by decide) (by decide)).2 hn
    rw [fmt5_list, List.length_append, List.length_replicate]
    omega
  have hw : ∀ n, words (fmt5 n).toList = [Nat.toDigits 10 n] := by
    intro n
    rw [fmt5_list, words_skip]
    unfold words
    rw [List.splitOnP_eq_singleton (by intro c hc; have := digits_clean n c hc; simp [this.1, this.2])]
    simp [Nat.toDigits_ne_nil]
  obtain ⟨c1, c2, c3⟩ := progName_clean x
  generalize progName x = name at *
  have hl : name.length = name.toList.length := String.length_toList.symm
  have hname : (fmtName name).toList = name.toList ++ ' ' :: List.replicate (24 - name.toList.length) ' ' := by
    unfold fmtName
    rw [String.toList_ofList, List.take_of_length_le (by omega), hl, ← List.replicate_succ, show 24 - name.toList.length + 1 = 25 - name.toList.length by omega]
  have hnl : (fmtName name).toList.length = 25 := by
    rw [hname, List.length_append, List.length_cons, List.length_replicate]; omega
  have hnw : words (fmtName name).toList = [name.toList] := by
    rw [hname, words_sep _ _ ' ' (.inl rfl) c1 c2]
    have := words_skip [] (24 - name.toList.length)
    rw [List.append_nil] at this
    rw [this]
    rfl
  have s5 : "     ".toList = List.replicate 5 ' ' := by simp
  have s8 : "        ".toList = List.replicate 8 ' ' := by simp
  have sn : "\n".toList = '\n' :: [] := by simp
  have hline : (ramspaceLine name ctx keygen sig ver).toList =
      (fmtName name).toList ++ ((fmt5 ctx).toList ++ (List.replicate 5 ' ' ++ ((fmt5 keygen).toList ++ (List.replicate 8 ' ' ++ ((fmt5 sig).toList ++ (List.replicate 5 ' ' ++ ((fmt5 ver).toList ++ ['\n']))))))) := by
    unfold ramspaceLine
    rw [if_neg h5]
    simp only [String.toList_append, List.append_assoc]
    rw [s5, s8, sn]
  intro l
  have hl : l = (ramspaceLine name ctx keygen sig ver).toList := rfl
  rw [hline] at hl
  have f1 := hlen _ h1
  have f2 := hlen _ h2
  have f3 := hlen _ h3
  have f4 := hlen _ h4
  clear_value l
  have d25 := congrArg (List.drop 25) hl
  rw [drop_prefix hnl] at d25
  have d35 := congrArg (List.drop 10) d25
  rw [List.drop_drop, ← List.append_assoc, drop_prefix (by rw [List.length_append, f1, List.length_replicate])] at d35
  have d48 := congrArg (List.drop 13) d35
  rw [List.drop_drop, ← List.append_assoc, drop_prefix (by rw [List.length_append, f2, List.length_replicate])] at d48
  have d58 := congrArg (List.drop 10) d48
  rw [List.drop_drop, ← List.append_assoc, drop_prefix (by rw [List.length_append, f3, List.length_replicate])] at d58
  simp only [hd]
  refine ⟨?_, ?_, ?_, ?_, ?_, ?_⟩
  · rw [hl]
    simp only [List.length_append, hnl, f1, f2, f3, f4, List.length_replicate, List.length_singleton]
  · rw [hl, take_prefix hnl, hnw]
  · rw [d25, take_prefix f1, hw]
  · rw [d35, take_prefix f2, hw]
  · rw [d48, take_prefix f3, hw]
  · rw [d58, take_prefix f4, hw]

/-- C53: ramspace appends its line to the file that is named in its first argument, and to no other; if that file cannot be opened it changes nothing and reports a failure. -/
theorem C53_file (prog name : String) (rest : List String) (canOpen : String → Bool) (files : String → String) (x : PsName) (ctx keygen sig ver : Nat) :
    ∃ status files', ramspaceMain (prog :: name :: rest) canOpen files (progName x) ctx keygen sig ver = .ok (status, files') ∧ (status = 0 ↔ canOpen name = true) ∧
      (status = 0 → files' name = files name ++ ramspaceLine (progName x) ctx keygen sig ver) ∧ (∀ f, f ≠ name → files' f = files f) ∧ (status ≠ 0 → files' = files) := by
  have hm : ramspaceMain (prog :: name :: rest) canOpen files (progName x) ctx keygen sig ver =
      (if canOpen name then .ok (0, fun f => if f = name then files f ++ ramspaceLine (progName x) ctx keygen sig ver else files f) else .ok (1, files)) := by
    simp [ramspaceMain]
  rw [hm]
  cases h : canOpen name with
  | true => exact ⟨_, _, rfl, by simp, by simp, fun f hf => by simp [hf], by simp⟩
  | false => exact ⟨_, _, rfl, by simp, by simp, by simp, by simp⟩

/-- C53: the check of the number of arguments (ramspace.c:15) does not catch a missing name of the file: without it, `fopen` is called with NULL. -/
theorem C53_no_name (prog : String) (canOpen : String → Bool) (files : String → String) (x : PsName) (ctx keygen sig ver : Nat) :
    ramspaceMain [prog] canOpen files (progName x) ctx keygen sig ver = .error .unmapped := rfl

/-- C53: with the library of this repository, and memory, ramspace never reports that verification failed: the last word of its line is what was measured. -/
theorem C53_never_failed (R : Room) (x : PsName) (hx : supported R.E.cfg x = true) (c c' : Ctx) (hc : Shape R.E.cfg c) (hc' : Shape R.E.cfg c') (h : Heap) (s : Nat) (hs : h s = none)
    (junk : Bytes) (hj : junk.length = ts_size_signature (ps R.E.cfg x)) (space : Nat) (hp : 0 < space) (ctx keygen sig : Nat) :
    ∃ ver, getVerSpaceHeap (spaceCallsOf R.E R.mem R.priv R.pub R.msg R.M.length c (ps R.E.cfg x)) (ts_size_signature (ps R.E.cfg x)) (some s) junk c' space h = .ok (ver, h) ∧
      (words (ramspaceLine (progName x) ctx keygen sig ver).toList)[4]? = some (toString space).toList := by
  refine ⟨space, C53_measured R x hx c c' hc hc' h s hs junk hj space, ?_⟩
  rw [C53_line, if_neg (by omega)]
  rfl

/-! The hypotheses are met: a library in which everything is accepted (so that the test must fail at the signature that is one byte short), one whose signatures are too short, and the
lines of ramspace.out. -/

/-- A library that returns `sigLen` for the length of the signature and accepts everything. -/
def gullible (sigLen : Nat) : Calls where
  genKey := .ok (1, fun _ => none)
  initSign _ := .ok (dirtyCtx fullCfg)
  sign _ b _ _ := .ok (sigLen, b)
  initVerify _ c _ := .ok c
  update _ _ c := .ok (1, c)
  verify _ := 1

theorem gullible_calm (n : Nat) : Calm (gullible n) :=
  ⟨⟨_, rfl⟩, fun _ => ⟨_, rfl⟩, fun _ b _ _ _ => ⟨_, b, rfl, rfl⟩, fun _ _ _ => ⟨_, rfl⟩, fun _ _ _ => ⟨_, rfl⟩⟩

example : doTestHeap (gullible 3) false 3 (some 7) [1, 2, 3, 4] (fun _ => dirtyCtx fullCfg) (dirtyCtx fullCfg) (fun _ => none) = .ok (0, fun _ => none) := by
  obtain ⟨r, e, -, -⟩ := C53_do_test (gullible_calm 3) false 3 (some 7) [1, 2, 3, 4] rfl (fun _ => dirtyCtx fullCfg) (dirtyCtx fullCfg) (fun _ => none) (fun _ _ => rfl)
  rw [e]
  have : r = 0 := congrArg (fun z : C (Nat × Heap) => match z with | .ok p => p.1 | .error _ => 9) e.symm
  rw [this]

example : (match doTestHeap (gullible 2) false 3 (some 7) [1, 2, 3, 4] (fun _ => dirtyCtx fullCfg) (dirtyCtx fullCfg) (fun _ => none) with | .ok p => p.1 | .error _ => 9) = 0 := rfl

example : (match getVerSpaceHeap (gullible 2) 3 (some 7) [1, 2, 3] (dirtyCtx fullCfg) 992 (fun _ => none) with | .ok p => p.1 | .error _ => 9) = 992 := rfl

example : ramspaceLine (progName .sha2_128f) 472 976 1024 992 = "ts_ps_sha2_128f_simple     472       976         1024       992\n" := by rfl
example : ramspaceLine (progName .shake_256s) 1040 1472 1488 1296 = "ts_ps_shake_256s_simple   1040      1472         1488      1296\n" := by rfl

end Properties
