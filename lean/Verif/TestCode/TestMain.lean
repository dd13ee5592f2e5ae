import Verif.TestCode.SuiteMore
import Verif.TestCode.RunTests
import Verif.Adapters.Test

/-!
# The test program with the test adapter

The table of test/run_tests.c as Makefile.test builds it (lines 24-40:
`T_COSE_ENABLE_HASH_FAIL_TEST` and `T_COSE_DISABLE_SIGN_VERIFY_TESTS`, the test
adapter, the SHA-256 of B-Con): each test function of test/t_cose_test.c is here the
value it returns. The global `hash_test_mode` of the hash failure test is 0 except
inside that test, which is the last of the table and sets it back.
-/

namespace TCose.SuiteTest
open TCose TestMsg RunTests

/-- Memory that is not initialised when a test starts: the `k`-th buffer of a test,
`n` octets long. Every test is free to find other contents. -/
abbrev Stack := Nat → Nat → Bytes

variable (cfg : Config) (P : QParams) (junk : Junk) (fresh : Bytes) (cap : Nat)

/-- The text of a C string literal. -/
def cname (s : String) : Bytes := s.toUTF8.toList

/-- `s_tests` (test/run_tests.c:51-99) for the test adapter. A row of the two tables of
tests of headers has the buffer `rows`; `cap` is the size `get_size_test` gives its NULL
buffer (SIZE_MAX in the code, test/t_cose_test.c:1546). -/
def sTests (buf : Nat → Stack) (rows : Nat → Row → Bytes) : List Entry :=
  let C := testCrypto cfg 0 fresh
  ⟨cname "sign1_structure_decode_test", structureTest cfg P C junk, true⟩ ::
  (if cfg.disableShortCircuit then [] else
    [⟨cname "bad_parameters_test", badParametersTest cfg P C junk payloadText (rows 0), true⟩,
     ⟨cname "crit_parameters_test", critParametersTest cfg P C junk payloadText (rows 1), true⟩] ++
    (if cfg.disableContentType then [] else
      [⟨cname "content_type_test",
        contentTypeTest cfg P C junk (buf 2 200 0) (buf 2 200 1) (buf 2 200 2), true⟩]) ++
    [⟨cname "all_header_parameters_test",
       allHeaderParametersTest cfg P C junk content (buf 3 300 0), true⟩,
     ⟨cname "cose_example_test", coseExampleTest cfg C (buf 4 200 0), true⟩,
     ⟨cname "short_circuit_signing_error_conditions_test",
       signingErrorsTest cfg C (buf 5 300 0) (buf 5 300 1) (buf 5 300 2) (buf 5 15 3), true⟩,
     ⟨cname "short_circuit_self_test",
       selfTest cfg P C junk (buf 6 200 0) (buf 6 200 1), true⟩,
     ⟨cname "short_circuit_self_detached_content_test",
       detachedTest cfg P C junk (buf 7 200 0), true⟩,
     ⟨cname "short_circuit_decode_only_test",
       decodeOnlyTest cfg P C junk (buf 8 200 0) (buf 8 10 1), true⟩,
     ⟨cname "short_circuit_make_cwt_test", makeCwtTest cfg P C junk (buf 9 200 0), true⟩,
     ⟨cname "short_circuit_verify_fail_test",
       verifyFailTest cfg P C junk (buf 10 200 0) (buf 10 200 1), true⟩,
     ⟨cname "tags_test",
       tagsTest cfg P C junk (buf 11 200 0) (buf 11 200 1) (buf 11 200 2), true⟩,
     ⟨cname "get_size_test", getSizeTest cfg C cap (buf 12 300 0) (buf 12 300 1), true⟩,
     ⟨cname "indef_array_and_map_test",
       indefTest cfg P C junk payloadText (buf 13 200 0) (buf 13 200 1) (buf 13 200 2), true⟩,
     ⟨cname "short_circuit_hash_fail_test",
       hashFailTest cfg (fun n => testCrypto cfg n fresh) (buf 14 200 0) (buf 14 200 1), true⟩])

/-- `check_for_key_pair_leaks` of the test adapter
(crypto_adapters/t_cose_test_crypto.c:124-131). -/
def testKeyLeaks : Nat := 0

end TCose.SuiteTest
