import Verif.Model.Clients
/-!
# C39: the test program (test_sphincs.c)
-/
namespace Properties
open Model

/-- The arguments that the test program knows. -/
def KnownArg (a : String) : Prop := a ∈ ["sha512", "shake256", "testvector", "verify", "all", "-f", "-full", "-q", "-v"]

/-- Test number `i` is asked for. -/
def Asked (args : List String) (i : Nat) : Prop := "all" ∈ args ∨ ∃ k, ["sha512", "shake256", "testvector", "verify"][i]? = some k ∧ k ∈ args

theorem and_shift (t i : Nat) : (0 = t &&& (1 <<< i)) ↔ t.testBit i = false := by
  rw [Nat.one_shiftLeft]
  constructor
  · intro h
    have : (t &&& 2 ^ i).testBit i = false := by rw [← h, Nat.zero_testBit]
    rw [Nat.testBit_and, Nat.testBit_two_pow_self, Bool.and_true] at this
    exact this
  · intro h
    apply Nat.eq_of_testBit_eq
    intro j
    rw [Nat.zero_testBit, Nat.testBit_and, Nat.testBit_two_pow]
    by_cases hj : i = j
    · rw [← hj, h]; rfl
    · rw [decide_eq_false hj, Bool.and_false]

/-- The bitmaps that can occur. -/
def Bitmap (t : Nat) : Prop := t < 16 ∨ t = 2 ^ 32 - 1

theorem bitmap_zero {t : Nat} (h : Bitmap t) : t ≠ 0 ↔ ∃ i, i < 4 ∧ t.testBit i = true := by
  rcases h with h | rfl
  · have : ∀ t, t < 16 → (t ≠ 0 ↔ ∃ i, i < 4 ∧ t.testBit i = true) := by decide
    exact this t h
  · exact ⟨fun _ => ⟨0, by decide, by decide⟩, fun _ => by decide⟩

theorem bitmap_or {t j : Nat} (h : Bitmap t) (hj : j < 4) : Bitmap (t ||| 1 <<< j) := by
  rcases h with h | rfl
  · refine .inl ?_
    have : ∀ t, t < 16 → ∀ j, j < 4 → t ||| 1 <<< j < 16 := by decide
    exact this t h j hj
  · refine .inr ?_
    have : ∀ j, j < 4 → (2 ^ 32 - 1) ||| 1 <<< j = 2 ^ 32 - 1 := by decide
    exact this j hj

theorem all_bits (i : Nat) (hi : i < 4) : (2 ^ 32 - 1 : Nat).testBit i = true := by
  have : ∀ i, i < 4 → (2 ^ 32 - 1 : Nat).testBit i = true := by decide
  exact this i hi

/-- The result of the argument loop. -/
def Parsed (args : List String) (s : MainArgs) : Prop :=
  (parseArgs args s = none ∧ ∃ a ∈ args, ¬ KnownArg a) ∨
    ∃ s', parseArgs args s = some s' ∧ (∀ a ∈ args, KnownArg a) ∧ Bitmap s'.tests_to_run ∧
      (∀ i, i < 4 → (s'.tests_to_run.testBit i = true ↔ s.tests_to_run.testBit i = true ∨ Asked args i)) ∧
      (s'.force_tests = true ↔ s.force_tests = true ∨ "-f" ∈ args) ∧ (s'.fast_flag = true ↔ s.fast_flag = true ∧ "-full" ∉ args)

/-- What the argument loop does. -/
theorem parseArgs_ok : ∀ (args : List String) (s : MainArgs), Bitmap s.tests_to_run → Parsed args s
  | [], s, h => .inr ⟨s, rfl, fun a h => absurd h List.not_mem_nil, h, fun i _ => by simp [Asked], by simp, by simp⟩
  | a :: args, s, h => by
    -- one step that keeps going
    have step : ∀ s1 : MainArgs, parseArgs (a :: args) s = parseArgs args s1 → KnownArg a → Bitmap s1.tests_to_run →
        (∀ i, i < 4 → (s1.tests_to_run.testBit i = true ↔ s.tests_to_run.testBit i = true ∨ Asked [a] i)) →
        (s1.force_tests = true ↔ s.force_tests = true ∨ a = "-f") → (s1.fast_flag = true ↔ s.fast_flag = true ∧ a ≠ "-full") →
        Parsed (a :: args) s := by
      intro s1 e1 hk hb hbits hfo hfa
      have hasked : ∀ i, Asked (a :: args) i ↔ Asked [a] i ∨ Asked args i := by
        intro i
        unfold Asked
        simp only [List.mem_cons, List.not_mem_nil, or_false]
        constructor
        · rintro ((h | h) | ⟨k, hk, h | h⟩)
          · exact .inl (.inl h)
          · exact .inr (.inl h)
          · exact .inl (.inr ⟨k, hk, h⟩)
          · exact .inr (.inr ⟨k, hk, h⟩)
        · rintro ((h | ⟨k, hk, h⟩) | h | ⟨k, hk, h⟩)
          · exact .inl (.inl h)
          · exact .inr ⟨k, hk, .inl h⟩
          · exact .inl (.inr h)
          · exact .inr ⟨k, hk, .inr h⟩
      rcases parseArgs_ok args s1 hb with ⟨e, b, hb, hn⟩ | ⟨s', e, hall, hb', hbits', hfo', hfa'⟩
      · exact .inl ⟨e1.trans e, b, List.mem_cons_of_mem _ hb, hn⟩
      · refine .inr ⟨s', e1.trans e, ?_, hb', ?_, ?_, ?_⟩
        · intro b hb
          rcases List.mem_cons.1 hb with rfl | hb
          · exact hk
          · exact hall b hb
        · intro i hi
          rw [hbits' i hi, hbits i hi, hasked, or_assoc]
        · rw [hfo', hfo, List.mem_cons, or_assoc]
          exact ⟨fun h => h.imp_right (fun h => h.imp_left Eq.symm), fun h => h.imp_right (fun h => h.imp_left Eq.symm)⟩
        · rw [hfa', hfa, List.mem_cons, not_or, and_assoc]
          exact ⟨fun h => ⟨h.1, fun hh => h.2.1 hh.symm, h.2.2⟩, fun h => ⟨h.1, fun hh => h.2.1 hh.symm, h.2.2⟩⟩
    have kw : ∀ j k, j < 4 → testKeywords.findIdx? (· == a) = some j → ["sha512", "shake256", "testvector", "verify"][j]? = some k → a = k →
        a ≠ "all" → a ≠ "-f" → a ≠ "-full" → KnownArg a → (∀ i, i < 4 → (Asked [a] i ↔ i = j)) → Parsed (a :: args) s := by
      intro j k hj hfind hk hak n1 n2 n3 hkn hask
      exact step { s with tests_to_run := s.tests_to_run ||| (1 <<< j) } (by
          show (match testKeywords.findIdx? (· == a) with | some j => _ | none => _) = _
          rw [hfind]) hkn (bitmap_or h hj)
        (by
          intro i hi
          show (s.tests_to_run ||| 1 <<< j).testBit i = true ↔ _
          rw [hask i hi, Nat.testBit_or, Nat.one_shiftLeft, Nat.testBit_two_pow, Bool.or_eq_true, decide_eq_true_iff]
          exact ⟨fun h => h.imp_right Eq.symm, fun h => h.imp_right Eq.symm⟩)
        ⟨fun h => .inl h, fun h => h.resolve_right n2⟩ ⟨fun h => ⟨h, n3⟩, fun h => h.1⟩
    by_cases a0 : a = "sha512"
    · exact kw 0 _ (by decide) (by rw [a0]; rfl) rfl a0 (by rw [a0]; decide) (by rw [a0]; decide) (by rw [a0]; decide) (by rw [a0]; unfold KnownArg; decide) (by rw [a0]; unfold Asked; decide)
    by_cases a1 : a = "shake256"
    · exact kw 1 _ (by decide) (by rw [a1]; rfl) rfl a1 (by rw [a1]; decide) (by rw [a1]; decide) (by rw [a1]; decide) (by rw [a1]; unfold KnownArg; decide) (by rw [a1]; unfold Asked; decide)
    by_cases a2 : a = "testvector"
    · exact kw 2 _ (by decide) (by rw [a2]; rfl) rfl a2 (by rw [a2]; decide) (by rw [a2]; decide) (by rw [a2]; decide) (by rw [a2]; unfold KnownArg; decide) (by rw [a2]; unfold Asked; decide)
    by_cases a3 : a = "verify"
    · exact kw 3 _ (by decide) (by rw [a3]; rfl) rfl a3 (by rw [a3]; decide) (by rw [a3]; decide) (by rw [a3]; decide) (by rw [a3]; unfold KnownArg; decide) (by rw [a3]; unfold Asked; decide)
    have hfind : testKeywords.findIdx? (· == a) = none := by
      rw [List.findIdx?_eq_none_iff]
      intro x hx
      unfold testKeywords at hx
      simp only [List.mem_cons, List.not_mem_nil, or_false] at hx
      rw [beq_eq_false_iff_ne]
      rcases hx with rfl | rfl | rfl | rfl
      · exact fun h => a0 h.symm
      · exact fun h => a1 h.symm
      · exact fun h => a2 h.symm
      · exact fun h => a3 h.symm
    have he : parseArgs (a :: args) s = (if a = "all" then parseArgs args { s with tests_to_run := 2 ^ 32 - 1 }
      else if a = "-f" then parseArgs args { s with force_tests := true }
      else if a = "-full" then parseArgs args { s with fast_flag := false }
      else if a = "-q" then parseArgs args s
      else if a = "-v" then parseArgs args s
      else none) := by
      conv => lhs; unfold parseArgs
      rw [hfind]
    have hno : ∀ i, a ≠ "all" → ¬ Asked [a] i := by
      rintro i hne (hh | ⟨k, hk, hh⟩)
      · exact hne (List.mem_singleton.1 hh).symm
      · have := List.mem_of_getElem? hk
        rw [List.mem_singleton.1 hh] at this
        simp only [List.mem_cons, List.not_mem_nil, or_false] at this
        rcases this with h | h | h | h
        · exact a0 h
        · exact a1 h
        · exact a2 h
        · exact a3 h
    by_cases b0 : a = "all"
    · refine step { s with tests_to_run := 2 ^ 32 - 1 } ?_ (by rw [b0]; unfold KnownArg; decide) (.inr rfl) ?_ ?_ ?_
      · rw [he, if_pos b0]
      · intro i hi
        exact ⟨fun _ => .inr (.inl (by rw [b0]; simp)), fun _ => all_bits i hi⟩
      · exact ⟨fun h => .inl h, fun h => h.resolve_right (by rw [b0]; decide)⟩
      · exact ⟨fun h => ⟨h, by rw [b0]; decide⟩, fun h => h.1⟩
    by_cases b1 : a = "-f"
    · refine step { s with force_tests := true } ?_ (by rw [b1]; unfold KnownArg; decide) h ?_ ?_ ?_
      · rw [he, if_neg b0, if_pos b1]
      · exact fun i hi => ⟨fun h => .inl h, fun h => h.resolve_right (hno i b0)⟩
      · exact ⟨fun _ => .inr b1, fun _ => rfl⟩
      · exact ⟨fun h => ⟨h, by rw [b1]; decide⟩, fun h => h.1⟩
    by_cases b2 : a = "-full"
    · refine step { s with fast_flag := false } ?_ (by rw [b2]; unfold KnownArg; decide) h ?_ ?_ ?_
      · rw [he, if_neg b0, if_neg b1, if_pos b2]
      · exact fun i hi => ⟨fun h => .inl h, fun h => h.resolve_right (hno i b0)⟩
      · exact ⟨fun h => .inl h, fun h => h.resolve_right (by rw [b2]; decide)⟩
      · exact ⟨fun h => (by cases h), fun h => absurd b2 h.2⟩
    by_cases b3 : a = "-q" ∨ a = "-v"
    · refine step s ?_ (by rcases b3 with b | b <;> (rw [b]; unfold KnownArg; decide)) h ?_ ?_ ?_
      · rw [he, if_neg b0, if_neg b1, if_neg b2]
        rcases b3 with b | b
        · rw [if_pos b]
        · rw [if_pos b, ite_self]
      · exact fun i hi => ⟨fun h => .inl h, fun h => h.resolve_right (hno i b0)⟩
      · exact ⟨fun h => .inl h, fun h => h.resolve_right b1⟩
      · exact ⟨fun h => ⟨h, b2⟩, fun h => h.1⟩
    · refine .inl ⟨?_, a, List.mem_cons_self, ?_⟩
      · rw [he, if_neg b0, if_neg b1, if_neg b2, if_neg (fun h => b3 (.inl h)), if_neg (fun h => b3 (.inr h))]
      · unfold KnownArg
        simp only [List.mem_cons, List.not_mem_nil, or_false, not_or]
        exact ⟨a0, a1, a2, a3, b0, b1, b2, fun h => b3 (.inl h), fun h => b3 (.inr h)⟩

/-- What `run_tests` does. -/
theorem run_tests_ok (t : Nat) (force : Bool) : ∀ (rs : List Nat) (i sf : Nat), sf = 0 ∨ sf = 1 →
    ((run_tests t force rs i sf).1 = 0 ∨ (run_tests t force rs i sf).1 = 1) ∧
      ((run_tests t force rs i sf).1 = 0 ↔ sf = 0 ∧ ∀ j, j < rs.length → t.testBit (i + j) = true → rs.getD j 0 ≠ 0) ∧
      (force = true ∨ (∀ j, j < rs.length → t.testBit (i + j) = true → rs.getD j 0 ≠ 0) →
        (run_tests t force rs i sf).2 = ((List.range' i rs.length).filter fun k => t.testBit k)) ∧
      (force = false → ∀ j, j < rs.length → t.testBit (i + j) = true → rs.getD j 0 = 0 → (∀ j' < j, t.testBit (i + j') = true → rs.getD j' 0 ≠ 0) →
        (run_tests t force rs i sf).2 = ((List.range' i (j + 1)).filter fun k => t.testBit k))
  | [], i, sf, h => ⟨h, by simp [run_tests], by simp [run_tests], fun _ j hj => absurd hj (Nat.not_lt_zero _)⟩
  | r :: rs, i, sf, h => by
    have shift : ∀ P : Nat → Nat → Prop, (∀ j, j < (r :: rs).length → P (i + j) ((r :: rs).getD j 0)) ↔ P i r ∧ ∀ j, j < rs.length → P (i + 1 + j) (rs.getD j 0) := by
      intro P
      constructor
      · intro hh
        refine ⟨hh 0 (by simp), fun j hj => ?_⟩
        have := hh (j + 1) (by simpa using hj)
        rwa [List.getD_cons_succ, show i + (j + 1) = i + 1 + j by omega] at this
      · rintro ⟨h0, h1⟩ j hj
        cases j with
        | zero => exact h0
        | succ j => rw [List.getD_cons_succ, show i + (j + 1) = i + 1 + j by omega]; exact h1 j (by simpa using hj)
    have sh := shift (fun k v => t.testBit k = true → v ≠ 0)
    unfold run_tests
    by_cases hb : t.testBit i = false
    · rw [if_pos ((and_shift t i).2 hb)]
      obtain ⟨h1, h2, h3, h4⟩ := run_tests_ok t force rs (i + 1) sf h
      refine ⟨h1, ?_, ?_, ?_⟩
      · rw [h2, sh]; simp [hb]
      · intro hh
        rw [sh] at hh
        rw [h3 (hh.imp_right And.right), List.length_cons, List.range'_succ, List.filter_cons, if_neg (by rw [hb]; decide)]
      · intro hf j hj hbj hrj hbefore
        cases j with
        | zero => rw [Nat.add_zero, hb] at hbj; cases hbj
        | succ j =>
          rw [h4 hf j (by simpa using hj) (by rw [show i + 1 + j = i + (j + 1) by omega]; exact hbj) (by simpa using hrj) (fun j' hj' hb' => by
            have := hbefore (j' + 1) (by omega) (by rw [show i + (j' + 1) = i + 1 + j' by omega]; exact hb')
            simpa using this)]
          conv => rhs; rw [List.range'_succ, List.filter_cons, if_neg (by rw [hb]; decide)]
    · have hb' : t.testBit i = true := by simpa using hb
      rw [if_neg (fun h => hb ((and_shift t i).1 h))]
      by_cases hr : r ≠ 0
      · rw [if_pos hr]
        obtain ⟨h1, h2, h3, h4⟩ := run_tests_ok t force rs (i + 1) sf h
        refine ⟨h1, ?_, ?_, ?_⟩
        · show _ = 0 ↔ _
          rw [h2, sh]
          exact ⟨fun h => ⟨h.1, fun _ => hr, h.2⟩, fun h => ⟨h.1, h.2.2⟩⟩
        · intro hh
          rw [sh] at hh
          show i :: _ = _
          rw [h3 (hh.imp_right And.right), List.length_cons, List.range'_succ, List.filter_cons, if_pos hb']
        · intro hf j hj hbj hrj hbefore
          show i :: _ = _
          cases j with
          | zero => exact absurd hrj hr
          | succ j =>
            rw [h4 hf j (by simpa using hj) (by rw [show i + 1 + j = i + (j + 1) by omega]; exact hbj) (by simpa using hrj) (fun j' hj' hb' => by
              have := hbefore (j' + 1) (by omega) (by rw [show i + (j' + 1) = i + 1 + j' by omega]; exact hb')
              simpa using this)]
            conv => rhs; rw [List.range'_succ, List.filter_cons, if_pos hb']
      · rw [if_neg hr]
        have hr0 : r = 0 := Decidable.not_not.1 hr
        cases force with
        | false =>
          rw [if_pos (by rfl)]
          refine ⟨.inr rfl, ?_, ?_, ?_⟩
          · rw [sh]
            exact ⟨fun h => (by cases h), fun h => absurd hr0 (h.2.1 hb')⟩
          · rw [sh]
            rintro (hh | hh)
            · cases hh
            · exact absurd hr0 (hh.1 hb')
          · intro _ j hj hbj hrj hbefore
            cases j with
            | zero => simp [List.range', List.filter_cons, hb']
            | succ j => exact absurd hr0 (hbefore 0 (by omega) hb')
        | true =>
          rw [if_neg (by decide)]
          obtain ⟨h1, h2, h3, -⟩ := run_tests_ok t true rs (i + 1) 1 (.inr rfl)
          refine ⟨h1, ?_, ?_, fun h => (by cases h)⟩
          · show _ = 0 ↔ _
            rw [h2, sh]
            exact ⟨fun h => (by cases h.1), fun h => absurd hr0 (h.2.1 hb')⟩
          · intro _
            show i :: _ = _
            rw [h3 (.inl rfl), List.length_cons, List.range'_succ, List.filter_cons, if_pos hb']

/-- C39: the test program exits with status 0 (success) or 1; with 0 exactly if all its arguments are known, at least one test is asked for, and every test asked
for passes (in fast mode, unless `-full` is given). -/
theorem C39_status (results : Bool → List Nat) (hr : ∀ b, (results b).length = 4) (args : List String) (fast : Bool) (hfast : fast = true ↔ "-full" ∉ args) :
    ((testMain results args).1 = 0 ∨ (testMain results args).1 = 1) ∧
    ((testMain results args).1 = 0 ↔ (∀ a ∈ args, KnownArg a) ∧ (∃ i, i < 4 ∧ Asked args i) ∧ ∀ i, i < 4 → Asked args i → (results fast).getD i 0 ≠ 0) := by
  unfold testMain
  rcases parseArgs_ok args ⟨0, false, true⟩ (.inl (by decide)) with ⟨e, a, ha, hn⟩ | ⟨s, e, hall, hb, hbits, hfo, hfa⟩
  · rw [e]
    exact ⟨.inr rfl, fun h => (by cases h), fun h => absurd (h.1 a ha) hn⟩
  · rw [e]
    have hfast' : s.fast_flag = fast := by
      rw [Bool.eq_iff_iff, hfa, hfast]
      simp
    have hbits' : ∀ i, i < 4 → (s.tests_to_run.testBit i = true ↔ Asked args i) := by
      intro i hi
      rw [hbits i hi]
      simp
    simp only
    by_cases hz : s.tests_to_run = 0
    · rw [if_pos hz]
      refine ⟨.inr rfl, fun h => (by cases h), fun h => ?_⟩
      obtain ⟨-, ⟨i, hi, ha⟩, -⟩ := h
      have := (hbits' i hi).2 ha
      rw [hz, Nat.zero_testBit] at this
      cases this
    · rw [if_neg hz, hfast']
      obtain ⟨h1, h2, -, -⟩ := run_tests_ok s.tests_to_run s.force_tests (results fast) 0 0 (.inl rfl)
      refine ⟨h1, ?_⟩
      rw [h2, hr]
      simp only [Nat.zero_add, true_and]
      obtain ⟨i0, hi0, hi0'⟩ := (bitmap_zero hb).1 hz
      constructor
      · intro h
        exact ⟨hall, ⟨i0, hi0, (hbits' i0 hi0).1 hi0'⟩, fun i hi ha => h i hi ((hbits' i hi).2 ha)⟩
      · intro h i hi ha
        exact h.2.2 i hi ((hbits' i hi).1 ha)

open Classical in
/-- C39: which tests are run. None, if an argument is unknown. Otherwise, with `-f` or if all pass, exactly those asked for, in order; without `-f`, those asked for up to the first
that fails, which is the last to be run. -/
theorem C39_ran (results : Bool → List Nat) (hr : ∀ b, (results b).length = 4) (args : List String) (fast : Bool) (hfast : fast = true ↔ "-full" ∉ args) :
    ((∃ a ∈ args, ¬ KnownArg a) → (testMain results args).2 = []) ∧
    ((∀ a ∈ args, KnownArg a) →
      ("-f" ∈ args ∨ (∀ i, i < 4 → Asked args i → (results fast).getD i 0 ≠ 0) → (testMain results args).2 = (List.range 4).filter fun i => Asked args i) ∧
      ("-f" ∉ args → ∀ i, i < 4 → Asked args i → (results fast).getD i 0 = 0 → (∀ j < i, Asked args j → (results fast).getD j 0 ≠ 0) →
        (testMain results args).2 = (List.range (i + 1)).filter fun j => Asked args j)) := by
  unfold testMain
  rcases parseArgs_ok args ⟨0, false, true⟩ (.inl (by decide)) with ⟨e, a, ha, hn⟩ | ⟨s, e, hall, hb, hbits, hfo, hfa⟩
  · rw [e]
    exact ⟨fun _ => rfl, fun h => absurd (h a ha) hn⟩
  · rw [e]
    have hfast' : s.fast_flag = fast := by
      rw [Bool.eq_iff_iff, hfa, hfast]
      simp
    have hbits' : ∀ i, i < 4 → (s.tests_to_run.testBit i = true ↔ Asked args i) := by
      intro i hi
      rw [hbits i hi]
      simp
    have hfil : ∀ n, n ≤ 4 → (List.range' 0 n).filter (fun k => s.tests_to_run.testBit k) = (List.range n).filter fun i => decide (Asked args i) := by
      intro n hn
      rw [← List.range_eq_range']
      apply List.filter_congr
      intro k hk
      rw [Bool.eq_iff_iff, hbits' k (by have := List.mem_range.1 hk; omega), decide_eq_true_iff]
    refine ⟨fun ⟨a, ha, hn⟩ => absurd (hall a ha) hn, fun _ => ?_⟩
    simp only
    by_cases hz : s.tests_to_run = 0
    · rw [if_pos hz]
      have hnone : ∀ i, i < 4 → ¬ Asked args i := by
        intro i hi ha
        have := (hbits' i hi).2 ha
        rw [hz, Nat.zero_testBit] at this
        cases this
      refine ⟨fun _ => ?_, fun _ i hi ha => absurd ha (hnone i hi)⟩
      rw [← hfil 4 (Nat.le_refl _), hz]
      decide
    · rw [if_neg hz, hfast']
      obtain ⟨-, -, h3, h4⟩ := run_tests_ok s.tests_to_run s.force_tests (results fast) 0 0 (.inl rfl)
      rw [hr] at h3 h4
      simp only [Nat.zero_add] at h3 h4
      constructor
      · intro hh
        rw [← hfil 4 (Nat.le_refl _)]
        refine h3 (hh.imp (fun h => hfo.2 (.inr h)) (fun h i hi ha => h i hi ((hbits' i hi).1 ha)))
      · intro hnf i hi ha hri hbefore
        rw [← hfil (i + 1) (by omega)]
        refine h4 ?_ i hi ((hbits' i hi).2 ha) hri (fun j hj hbj => hbefore j hj ((hbits' j (by omega)).1 hbj))
        rw [← Bool.not_eq_true, hfo]
        rintro (h | h)
        · cases h
        · exact hnf h

/-! Cases: a failing second test, with and without `-f`; an unknown argument; no test. -/
example : testMain (fun _ => [1, 0, 1, 1]) ["all"] = (1, [0, 1]) ∧ testMain (fun _ => [1, 0, 1, 1]) ["-f", "all"] = (1, [0, 1, 2, 3]) ∧
    testMain (fun _ => [1, 0, 1, 1]) ["verify", "sha512"] = (0, [0, 3]) ∧ testMain (fun _ => [1, 1, 1, 1]) ["sha512", "sha256"] = (1, []) ∧
    testMain (fun _ => [1, 1, 1, 1]) ["-q"] = (1, []) := by decide

end Properties
