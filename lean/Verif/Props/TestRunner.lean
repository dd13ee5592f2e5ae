import Verif.Lemmas.RunTests

/-!
# C59, C60: the test runner

`NumToString` and `RunTestsTCose` of test/run_tests.c.
-/

namespace TCose.Props
open TCose TCose.RunTests

/-- **C59, part that holds.** For every 32-bit number except the least one and
every buffer: the decimal notation when the magnitude is at most 999999999 and
the buffer has room for it and a NUL, the empty string when it has not, and
"XXX" above that magnitude.

Missing from the full statement: `INT32_MIN` (`C59_int_min`). -/
theorem C59_number_partial (n : Int) (hlo : -2147483648 < n) (_hhi : n ≤ 2147483647) (cap : Nat) :
    numToString n cap =
      if n.natAbs > 999999999 then .str "XXX".toUTF8.toList
      else if (Spec.signedDecimal n).length < cap then .str (Spec.signedDecimal n)
      else .str [] := by
  unfold numToString
  simp only []
  rw [if_neg (by omega)]
  by_cases hbig : n.natAbs > 999999999
  · rw [if_pos hbig, if_pos hbig]; decide +kernel
  rw [if_neg hbig, if_neg hbig]
  have hdig := loopDigits_false 9 n.natAbs (by simp; omega)
  have h109 : (10 : Nat) ^ 9 = 1000000000 := by decide
  rw [h109] at hdig
  -- everything is one sequence of appended octets
  have hall : ∀ o : OutBuf,
      ((if (digitLoop 1000000000 n.natAbs false o).1 then (digitLoop 1000000000 n.natAbs false o).2
        else (digitLoop 1000000000 n.natAbs false o).2.append 0x30).append 0)
        = appendAll o (Spec.decimal n.natAbs ++ [0]) := by
    intro o
    rw [digitLoop_eq, hdig, appendAll_append]
    by_cases h0 : n.natAbs = 0
    · have hd0 : Spec.decimal 0 = [0x30] := by rw [Spec.decimal]; rfl
      rw [h0, hd0]
      rfl
    · have hne := decimal_ne_nil n.natAbs
      have hie : (Spec.decimal n.natAbs).isEmpty = false := by simpa using hne
      simp only [if_neg h0, hie, Bool.not_false, Bool.or_true, if_true]
      rfl
  rw [hall]
  have hsgn : appendAll (if n < 0 then OutBuf.append ⟨cap, [], false⟩ 0x2d else ⟨cap, [], false⟩)
      (Spec.decimal n.natAbs ++ [0]) = appendAll ⟨cap, [], false⟩ (Spec.signedDecimal n ++ [0]) := by
    unfold Spec.signedDecimal
    split <;> rfl
  rw [hsgn]
  obtain ⟨h1, h2⟩ := appendAll_spec (Spec.signedDecimal n ++ [0]) ⟨cap, [], false⟩ rfl (by simp)
  simp only [List.length_append, List.length_cons, List.length_nil] at h1 h2
  by_cases hc : (Spec.signedDecimal n).length < cap
  · rw [h1 (by omega), if_pos hc]
    simp
  · rw [h2 (by omega), if_neg hc]
    rfl

/-- The runner's buffer of 12 octets is enough for every number the function
writes out. -/
theorem C59_twelve_octets (n : Int) (h : n.natAbs ≤ 999999999) :
    numToString n 12 = .str (Spec.signedDecimal n) := by
  rw [C59_number_partial n (by omega) (by omega), if_neg (by omega), if_pos]
  have := decimal_length_le (n := n.natAbs) (by omega)
  unfold Spec.signedDecimal
  split <;> simp <;> omega

/-- Negating the least number overflows. -/
theorem C59_int_min : ∀ cap, numToString (-2147483648) cap = .ub := fun _ => rfl

example : numToString (-40671) 12 = .str "-40671".toUTF8.toList ∧
    numToString 0 12 = .str "0".toUTF8.toList ∧ numToString 1000 4 = .str [] ∧
    numToString 1000000000 12 = .str "XXX".toUTF8.toList := by
  rw [C59_number_partial _ (by decide) (by decide), C59_number_partial _ (by decide) (by decide),
    C59_number_partial _ (by decide) (by decide), C59_number_partial _ (by decide) (by decide)]
  simp only [Spec.signedDecimal]
  simp [Spec.decimal]
  decide +kernel

/-- The tests a run is about: those named, or the enabled ones. -/
def requested (names : List Bytes) (tests : List Entry) : List Entry :=
  tests.filter fun t => if names = [] then t.enabled else names.any (· == t.name)

theorem selected_eq (names : List Bytes) (t : Entry) :
    selected names t = (if names = [] then t.enabled else names.any (· == t.name)) := by
  unfold selected
  cases names with
  | nil => rfl
  | cons a l =>
    simp only [List.isEmpty_cons, Bool.false_eq_true, if_false, reduceCtorEq]
    rw [List.contains_eq_any_beq]
    simp [BEq.comm]

/-- What the report says about one test. -/
def reportOf (t : Entry) : List Line :=
  if castInt32 t.result = 0 then [(.str t.name, false), (.str " PASSED".toUTF8.toList, true)]
  else [(.str t.name, false), (.str " FAILED (returned ".toUTF8.toList, false),
    (numToString (castInt32 t.result) 12, false), (.str ")".toUTF8.toList, true)]

theorem loop_eq (names : List Bytes) (tests : List Entry) (st : RunState) :
    loop names tests st =
      ⟨st.run + (requested names tests).length,
       st.failed + ((requested names tests).filter (fun t => castInt32 t.result != 0)).length,
       st.lines ++ (requested names tests).flatMap reportOf⟩ := by
  induction tests generalizing st with
  | nil => simp [loop, requested]
  | cons t ts ih =>
    have hreq : requested names (t :: ts)
        = if selected names t then t :: requested names ts else requested names ts := by
      unfold requested
      rw [selected_eq, List.filter_cons]
    rw [loop, hreq]
    by_cases hs : selected names t = true
    · rw [if_pos hs, if_pos hs]
      simp only []
      by_cases hr : castInt32 t.result = 0
      · rw [if_neg (by simp [hr]), ih]
        simp [hr, reportOf, sPassed]
        omega
      · rw [if_pos hr, ih]
        simp [hr, reportOf, sFailed, sClose]
        omega
    · rw [if_neg hs, if_neg hs, ih]

/-- **C60.** What a run reports, for every table and request: the requested
tests, each once and in table order; the number that returned something other
than a multiple of 2^32. -/
theorem C60_report (tests : List Entry) (names : List Bytes) :
    (runTests tests names).run = (requested names tests).length ∧
    (runTests tests names).failed
      = ((requested names tests).filter (fun t => t.result % 4294967296 != 0)).length ∧
    ∃ tail, (runTests tests names).lines = (requested names tests).flatMap reportOf ++ tail := by
  have hcast : ∀ v : Int, (castInt32 v != 0) = (v % 4294967296 != 0) := by
    intro v
    unfold castInt32
    rw [bne, bne]
    congr 1
    rw [Bool.eq_iff_iff]
    simp only [beq_iff_eq]
    omega
  unfold runTests
  rw [loop_eq]
  refine ⟨by simp, ?_, _, by simp; rfl⟩
  simp only [Nat.zero_add, hcast]

/-- **C60 (report).** The whole output, for tables of less than 10^9 tests: a report for
each requested test, and then the summary with the numbers in decimal. -/
theorem C60_output (tests : List Entry) (names : List Bytes) (h : tests.length ≤ 999999999) :
    (runTests tests names).lines = (requested names tests).flatMap reportOf ++
      [(.str "SUMMARY: ".toUTF8.toList, false),
       (.str (Spec.signedDecimal (requested names tests).length), false),
       (.str " tests run; ".toUTF8.toList, false),
       (.str (Spec.signedDecimal
          ((requested names tests).filter (fun t => t.result % 4294967296 != 0)).length), false),
       (.str " tests failed".toUTF8.toList, true)] := by
  have h1 : (requested names tests).length ≤ tests.length := List.length_filter_le _ _
  have h2 := List.length_filter_le (fun t : Entry => t.result % 4294967296 != 0) (requested names tests)
  obtain ⟨r1, r2, -⟩ := C60_report tests names
  rw [← C59_twelve_octets _ (by omega), ← C59_twelve_octets _ (by omega), ← r1, ← r2]
  unfold runTests
  rw [loop_eq]
  simp [sSummary, sRun, sEnd]

/-- **C60 (exit status).** Without failures the status tells the leaked keys, otherwise the
failures, modulo 256; for fewer than 256 of each it is 0 exactly when every
requested test returned a multiple of 2^32 and no key leaked. -/
theorem C60_status (tests : List Entry) (names : List Bytes) (leaks : Nat) (h : tests.length < 256)
    (hl : leaks < 256) :
    mainStatus tests names leaks =
        (if ∀ t ∈ requested names tests, t.result % 4294967296 = 0 then leaks
         else ((requested names tests).filter (fun t => t.result % 4294967296 != 0)).length) ∧
      (mainStatus tests names leaks = 0 ↔
        (∀ t ∈ requested names tests, t.result % 4294967296 = 0) ∧ leaks = 0) := by
  have h1 : (requested names tests).length ≤ tests.length := List.length_filter_le _ _
  have h2 := List.length_filter_le (fun t : Entry => t.result % 4294967296 != 0) (requested names tests)
  have h3 : ((requested names tests).filter (fun t => t.result % 4294967296 != 0)).length = 0 ↔
      ∀ t ∈ requested names tests, t.result % 4294967296 = 0 := by
    rw [List.length_eq_zero_iff, List.filter_eq_nil_iff]
    simp
  unfold mainStatus
  simp only [(C60_report tests names).2.1]
  by_cases hz : ∀ t ∈ requested names tests, t.result % 4294967296 = 0
  · have := h3.mpr hz
    rw [this]
    simp only [ne_eq, not_true, if_false, if_pos hz, Nat.mod_eq_of_lt hl]
    exact ⟨trivial, fun e => ⟨hz, e⟩, fun e => e.2⟩
  · have hn : ((requested names tests).filter (fun t => t.result % 4294967296 != 0)).length ≠ 0 :=
      fun e => hz (h3.mp e)
    rw [if_pos hn, if_neg hz, Nat.mod_eq_of_lt (by omega)]
    exact ⟨rfl, fun e => absurd e hn, fun e => absurd e.1 hz⟩

/-- **C60, part that holds.** If every requested name is in the table and every
test returns a 32-bit number, then a run reports no failure exactly when every
requested test returned 0, and every requested name was run.

Missing from the full statement (it is false): names that are not in the table
(`C60_unknown_name`) and results outside 32 bits (`C60_wide_result`). -/
theorem C60_verdict_partial (tests : List Entry) (names : List Bytes)
    (_hnames : ∀ n ∈ names, ∃ t ∈ tests, t.name = n)
    (hres : ∀ t ∈ tests, -2147483648 ≤ t.result ∧ t.result ≤ 2147483647) :
    ((runTests tests names).failed = 0 ↔
      ∀ t ∈ tests, (if names = [] then t.enabled = true else t.name ∈ names) → t.result = 0) ∧
    ∀ n ∈ names, ∃ t ∈ requested names tests, t.name = n := by
  constructor
  · rw [(C60_report tests names).2.1]
    rw [List.length_eq_zero_iff, List.filter_eq_nil_iff]
    have hmem : ∀ t, t ∈ requested names tests ↔ t ∈ tests ∧
        (if names = [] then t.enabled = true else t.name ∈ names) := by
      intro t
      unfold requested
      rw [List.mem_filter]
      by_cases hn : names = []
      · simp [hn]
      · simp [hn]
    constructor
    · intro h t ht hsel
      have := h t ((hmem t).mpr ⟨ht, hsel⟩)
      have hr := hres t ht
      simp only [bne_iff_ne, ne_eq, Decidable.not_not] at this
      omega
    · intro h t ht
      obtain ⟨h1, h2⟩ := (hmem t).mp ht
      rw [h t h1 h2]
      decide
  · intro n hn
    obtain ⟨t, ht, rfl⟩ := _hnames n hn
    refine ⟨t, ?_, rfl⟩
    unfold requested
    rw [List.mem_filter]
    have : names ≠ [] := fun h => by rw [h] at hn; cases hn
    simp [ht, this, hn]

/-- A misspelt test name: nothing runs, and the run counts as a success. -/
theorem C60_unknown_name :
    let t : Entry := ⟨"tags_test".toUTF8.toList, -1000, true⟩
    (runTests [t] ["tag_test".toUTF8.toList]).failed = 0 ∧
      (runTests [t] ["tag_test".toUTF8.toList]).run = 0 ∧
      mainStatus [t] ["tag_test".toUTF8.toList] 0 = 0 := by
  decide +kernel

/-- A failing test whose result is a multiple of 2^32 counts as passed. -/
theorem C60_wide_result :
    let t : Entry := ⟨"tags_test".toUTF8.toList, 4294967296, true⟩
    (runTests [t] []).failed = 0 ∧ (runTests [t] []).run = 1 := by
  decide +kernel

/- 256 failing tests give the status 0. -/
example : mainStatus (List.replicate 256 ⟨"tags_test".toUTF8.toList, -1000, true⟩) [] 0 = 0 := by
  decide +kernel

/- One failing test, and a leaked key. -/
example : mainStatus [⟨[0x61], -1000, true⟩, ⟨[0x62], 0, true⟩] [] 3 = 1 ∧
    mainStatus [⟨[0x61], -1000, true⟩, ⟨[0x62], 0, true⟩] [[0x62]] 3 = 3 := by
  decide +kernel

example :
    let t : Entry := ⟨"tags_test".toUTF8.toList, -1000, true⟩
    let u : Entry := ⟨"cose_example_test".toUTF8.toList, 0, true⟩
    (runTests [t, u] []).failed = 1 ∧ (runTests [t, u] []).run = 2 ∧
      (runTests [t, u] ["cose_example_test".toUTF8.toList]).failed = 0 ∧
      (runTests [t, u] ["cose_example_test".toUTF8.toList]).run = 1 := by
  decide +kernel

end TCose.Props
