import Verif.TestCode.TestMain
import Verif.Props.SuiteMore
import Verif.Props.TestRunner

/-!
# C73: the test program with the test adapter

Everything from `main` down to the SHA-256 of the test adapter: the program prints
that every test passed and ends with the status 0, in every build and whatever
memory that is not initialised holds.
-/

namespace TCose.Props
open TCose Spec TestMsg SuiteTest RunTests

/-- The tests of a build (README and test/t_cose_test.h describe each of them). -/
def testNames (noShortCircuit noContentType : Bool) : List String :=
  "sign1_structure_decode_test" ::
  (if noShortCircuit then [] else
    ["bad_parameters_test", "crit_parameters_test"] ++
    (if noContentType then [] else ["content_type_test"]) ++
    ["all_header_parameters_test", "cose_example_test",
     "short_circuit_signing_error_conditions_test", "short_circuit_self_test",
     "short_circuit_self_detached_content_test", "short_circuit_decode_only_test",
     "short_circuit_make_cwt_test", "short_circuit_verify_fail_test", "tags_test",
     "get_size_test", "indef_array_and_map_test", "short_circuit_hash_fail_test"])

variable (cfg : Config) (junk : Junk) (fresh : Bytes) (hf : fresh.length = 64) (cap : Nat)
  (hcap : 200 ≤ cap) (buf : Nat → Stack) (hb : ∀ i n k, (buf i n k).length = n)
  (rows : Nat → Row → Bytes) (hr : ∀ i t, (rows i t).length = 200)

include hf hcap hb hr

/-- **C73 (each test).** Every test of the table returns 0. -/
theorem C73_each : ∀ t ∈ sTests cfg QParams.std junk fresh cap buf rows, t.result = 0 := by
  have hst : structureTest cfg QParams.std (testCrypto cfg 0 fresh) junk = 0 := (C72_structure junk).1
  cases hsc : cfg.disableShortCircuit with
  | true =>
    intro t ht
    unfold sTests at ht
    dsimp only at ht
    rw [if_pos hsc] at ht
    rw [List.mem_singleton.mp ht]
    exact hst
  | false =>
    have hD := test_digests32 (cfg := cfg) fresh hf
    have hfit := test_signFits cfg 0 fresh
    have h1 : Sha256.sha256 (es256Tbs [] content) = hashOfTbs := by
      rw [← Sha256.fastSha_eq]; decide +kernel
    have h2 : Sha256.sha256 (es256Tbs [] tampered) ≠ Sha256.sha256 (es256Tbs [] content) := by
      rw [← Sha256.fastSha_eq, ← Sha256.fastSha_eq]; decide +kernel
    have h3 : Sha256.sha256 (es256Tbs homeAad content) ≠ Sha256.sha256 (es256Tbs someAad content) := by
      rw [← Sha256.fastSha_eq, ← Sha256.fastSha_eq]; decide +kernel
    have a := C69_test_adapter cfg junk hsc fresh hf payloadText content (by decide) (by decide) (rows 0)
      (hr 0) (buf 13 200 0) (buf 13 200 1) (buf 13 200 2) (buf 3 300 0) (hb ..) (hb ..) (hb ..) (hb ..)
    have a' := C69_test_adapter cfg junk hsc fresh hf payloadText content (by decide) (by decide) (rows 1)
      (hr 1) (buf 13 200 0) (buf 13 200 1) (buf 13 200 2) (buf 3 300 0) (hb ..) (hb ..) (hb ..) (hb ..)
    have t1 := C72_self junk hsc hD hfit (buf 6 200 0) (buf 6 200 1) (hb ..) (hb ..)
    rw [if_pos h1] at t1
    have t2 := C72_detached junk hsc hD hfit (buf 7 200 0) (hb ..)
    rw [if_pos h1] at t2
    have t3 := C72_verify_fail junk hsc hD hfit (buf 10 200 0) (buf 10 200 1) (hb ..) (hb ..)
    rw [if_pos ⟨h2, h3⟩] at t3
    intro t ht
    unfold sTests at ht
    dsimp only at ht
    rw [if_neg (by rw [hsc]; simp)] at ht
    simp only [List.mem_cons, List.mem_append, List.not_mem_nil, or_false] at ht
    rcases ht with rfl | ((rfl | rfl) | hc) | (rfl | rfl | rfl | rfl | rfl | rfl | rfl | rfl | rfl | rfl |
      rfl | rfl)
    · exact hst
    · exact congrArg Int.ofNat a.1
    · exact congrArg Int.ofNat a'.2.1
    · cases hct : cfg.disableContentType with
      | true => rw [if_pos hct] at hc; cases hc
      | false =>
        rw [if_neg (by rw [hct]; simp)] at hc
        rw [List.mem_singleton.mp hc]
        exact C72_content_type junk hsc hct hD hfit _ _ _ (hb ..) (hb ..)
    · exact congrArg Int.ofNat a.2.2.2
    · exact C72_example hsc hD hfit _ (hb ..)
    · exact C72_signing_errors hsc _ _ _ _ (hb ..) (hb ..)
    · exact t1
    · exact t2
    · exact C72_decode_only junk hsc hD hfit _ _ (hb ..) (hb ..)
    · exact C72_cwt junk hsc hD hfit _ (hb ..)
    · exact t3
    · exact C72_tags junk hsc hD hfit _ _ _ (hb ..) (hb ..) (hb ..)
    · exact C72_get_size hsc hD hfit cap hcap _ _ (hb ..) (hb ..)
    · exact congrArg Int.ofNat a.2.2.1
    · exact C72_hash_fail hsc fresh _ _ (hb ..) (hb ..) hf

omit hf hcap hb hr in
theorem sTests_names : (sTests cfg QParams.std junk fresh cap buf rows).map (·.name) =
    (testNames cfg.disableShortCircuit cfg.disableContentType).map cname ∧
    ∀ t ∈ sTests cfg QParams.std junk fresh cap buf rows, t.enabled = true := by
  unfold sTests testNames
  cases cfg.disableShortCircuit <;> cases cfg.disableContentType <;> simp

/-- **C73 (output).** Run without arguments, the program prints for every test of the build
its name and PASSED, and then how many there were and that none failed. -/
theorem C73_output : (runTests (sTests cfg QParams.std junk fresh cap buf rows) []).lines =
    ((testNames cfg.disableShortCircuit cfg.disableContentType).flatMap fun n =>
      [(.str n.toUTF8.toList, false), (.str " PASSED".toUTF8.toList, true)]) ++
    [(.str "SUMMARY: ".toUTF8.toList, false),
     (.str (if cfg.disableShortCircuit then "1" else if cfg.disableContentType then "15" else "16").toUTF8.toList,
       false),
     (.str " tests run; ".toUTF8.toList, false), (.str "0".toUTF8.toList, false),
     (.str " tests failed".toUTF8.toList, true)] := by
  obtain ⟨hn, he⟩ := sTests_names cfg junk fresh cap buf rows
  have hz := C73_each cfg junk fresh hf cap hcap buf hb rows hr
  generalize sTests cfg QParams.std junk fresh cap buf rows = ts at hn he hz
  have hl : ts.length = (testNames cfg.disableShortCircuit cfg.disableContentType).length := by
    have := congrArg List.length hn
    simpa using this
  have hreq : requested [] ts = ts := by
    unfold requested
    rw [List.filter_eq_self]
    intro t ht
    exact he t ht
  have hfl : ts.filter (fun t => t.result % 4294967296 != 0) = [] := by
    rw [List.filter_eq_nil_iff]
    intro t ht
    rw [hz t ht]
    simp
  have hrep : ts.flatMap reportOf = (ts.map (·.name)).flatMap fun n =>
      [(.str n, false), (.str " PASSED".toUTF8.toList, true)] := by
    rw [List.flatMap_map]
    clear hn he hl hreq hfl
    induction ts with
    | nil => rfl
    | cons t ts ih =>
      rw [List.flatMap_cons, List.flatMap_cons, ih fun t ht => hz t (by simp [ht])]
      congr 1
      unfold reportOf
      rw [hz t (by simp)]
      rfl
  have hcount : (Spec.signedDecimal (testNames cfg.disableShortCircuit cfg.disableContentType).length) =
      (if cfg.disableShortCircuit then "1" else if cfg.disableContentType then "15" else "16").toUTF8.toList := by
    cases cfg.disableShortCircuit <;> cases cfg.disableContentType <;> decide +kernel
  rw [C60_output ts [] (by
    rw [hl]
    cases cfg.disableShortCircuit <;> cases cfg.disableContentType <;> decide), hreq, hfl, hrep, hn,
    List.flatMap_map, hl, hcount, show Spec.signedDecimal (([] : List RunTests.Entry).length : Nat) =
      "0".toUTF8.toList by decide +kernel]
  rfl

/-- **C73 (status).** Whatever tests are asked for by name, none fails and the program ends
with the status 0. -/
theorem C73_status (names : List Bytes) :
    (runTests (sTests cfg QParams.std junk fresh cap buf rows) names).failed = 0 ∧
    mainStatus (sTests cfg QParams.std junk fresh cap buf rows) names testKeyLeaks = 0 := by
  have hz := C73_each cfg junk fresh hf cap hcap buf hb rows hr
  have hreq : ∀ t ∈ requested names (sTests cfg QParams.std junk fresh cap buf rows), t.result = 0 := by
    intro t ht
    unfold requested at ht
    exact hz t (List.mem_filter.mp ht).1
  have hlen : (sTests cfg QParams.std junk fresh cap buf rows).length < 256 := by
    have := congrArg List.length (sTests_names cfg junk fresh cap buf rows).1
    rw [List.length_map, List.length_map] at this
    rw [this]
    cases cfg.disableShortCircuit <;> cases cfg.disableContentType <;> decide
  refine ⟨?_, ?_⟩
  · rw [(C60_report _ _).2.1, List.length_eq_zero_iff, List.filter_eq_nil_iff]
    intro t ht
    rw [hreq t ht]
    simp
  · rw [(C60_status _ names testKeyLeaks hlen (by decide)).2]
    exact ⟨fun t ht => by rw [hreq t ht]; rfl, rfl⟩

omit hf hcap hb hr

/- The conditions hold: stack memory full of 0xa5, hash contexts full of 0x5a, a size of
2^64 - 1 for the NULL buffer. -/
example : mainStatus (sTests Config.full QParams.std noJunk (List.replicate 64 0x5a) 18446744073709551615
    (fun _ n _ => List.replicate n 0xa5) (fun _ _ => List.replicate 200 0xa5)) [] testKeyLeaks = 0 :=
  (C73_status Config.full noJunk _ List.length_replicate _ (by decide) _ (fun _ _ _ => List.length_replicate)
    _ (fun _ _ => List.length_replicate) []).2

end TCose.Props
