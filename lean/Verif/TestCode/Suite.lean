import Verif.TestCode.MakeMessages
import Verif.TCose.Verify

/-!
# test/t_cose_test.c: tests of header parameters

The tests that make a message with the suite's signer and verify it.  Stack
buffers are uninitialised memory, given as a parameter; so are the adapter and
the octets of the payload, which the code fixes to "payload".
-/

namespace TCose.SuiteTest
open TestMsg

/-- `T_COSE_OPT_SHORT_CIRCUIT_SIG` and `T_COSE_OPT_ALLOW_SHORT_CIRCUIT`, both 1. -/
def shortCircuitFlag : Nat := 1

/-- `run_test_sign_and_verify` (test/t_cose_test.c:718-766). `m` is the buffer
`signed_cose_buffer`; the encoder of line 733 is never used. -/
def signAndVerify (cfg : Config) (P : QParams) (C : Crypto) (junk : Junk) (payload m : Bytes)
    (opts vopts : Nat) : Except Err Unit :=
  match (TestMsg.sign cfg C (SignCtx.init shortCircuitFlag algES256) .nil opts
      (.data payload) m).1 with
  | .error x => .error x
  | .ok r => (sign1Verify cfg P C junk (VerifyCtx.init (shortCircuitFlag ||| vopts)) r.bytes
      true false).res

/-- A row of a `struct test_case` table (test/t_cose_test.c:841-845). -/
structure Row where
  opts : Nat
  vopts : Nat
  result : Except Err Unit

/-- `T_COSE_OPT_UNKNOWN_CRIT_ALLOWED` (t_cose_sign1_verify.h:188). -/
def critAllowed : Nat := 2 ^ optUnknownCritAllowed

/-- `bad_parameters_tests_table` (test/t_cose_test.c:847-882) without the
terminating row. -/
def badTable (cfg : Config) : List Row :=
  [⟨2 ^ emptyProtected, 0, .error .unsupportedSigningAlg⟩,
   ⟨2 ^ unclosedProtected, 0, .error .parameterCbor⟩]
  ++ (if cfg.disableContentType then [] else
      [⟨2 ^ dupContentId, 0, .error .duplicateParameter⟩,
       ⟨2 ^ tooLargeContentType, 0, .error .badContentType⟩])
  ++ [⟨2 ^ notWellFormed2, 0, .error .cborNotWellFormed⟩,
   ⟨2 ^ kidInProtected, 0, .error .duplicateParameter⟩,
   ⟨2 ^ tooManyUnknown, 0, .error .tooManyParameters⟩,
   ⟨2 ^ unprotectedNotMap, 0, .error .parameterCbor⟩,
   ⟨2 ^ badCritParameter, 0, .error .critParameter⟩,
   ⟨2 ^ notWellFormed1, 0, .error .cborNotWellFormed⟩,
   ⟨2 ^ noUnprotected, 0, .error .parameterCbor⟩,
   ⟨2 ^ noProtected, 0, .error .parameterCbor⟩,
   ⟨2 ^ extraParameter, 0, .ok ()⟩,
   ⟨2 ^ parameterLabel, 0, .error .parameterCbor⟩,
   ⟨2 ^ badProtected, 0, .error .parameterCbor⟩]

/-- `crit_tests_table` (test/t_cose_test.c:904-938) without the terminating row. -/
def critTable : List Row :=
  [⟨2 ^ critExist, 0, .ok ()⟩,
   ⟨2 ^ tooManyCritExist, 0, .error .critParameter⟩,
   ⟨2 ^ badCritLabel, 0, .error .critParameter⟩,
   ⟨2 ^ unknownCritUint, 0, .error .unknownCriticalParameter⟩,
   ⟨2 ^ unknownCritTstr, 0, .error .unknownCriticalParameter⟩,
   ⟨2 ^ unknownCritUint, critAllowed, .ok ()⟩,
   ⟨2 ^ unknownCritTstr, critAllowed, .ok ()⟩,
   ⟨2 ^ critNotProtected, 0, .error .parameterNotProtected⟩,
   ⟨2 ^ emptyCrit, 0, .error .critParameter⟩,
   ⟨2 ^ tooManyTstrCrit, 0, .error .critParameter⟩]

/-- The loop of `bad_parameters_test` and `crit_parameters_test`
(test/t_cose_test.c:888-899, 944-955): number of the first row whose result is
not the expected one, or 0. `row` is the number of the first row of the list. -/
def tableLoop (run : Row → Except Err Unit) : Nat → List Row → Nat
  | _, [] => 0
  | row, t :: r => if run t ≠ t.result then row else tableLoop run (row + 1) r

/-- `bad_parameters_test` (test/t_cose_test.c:888-899), with a new buffer for
every row. -/
def badParametersTest (cfg : Config) (P : QParams) (C : Crypto) (junk : Junk) (payload : Bytes)
    (m : Row → Bytes) : Nat :=
  tableLoop (fun t => signAndVerify cfg P C junk payload (m t) t.opts t.vopts) 1 (badTable cfg)

/-- `crit_parameters_test` (test/t_cose_test.c:944-955). -/
def critParametersTest (cfg : Config) (P : QParams) (C : Crypto) (junk : Junk) (payload : Bytes)
    (m : Row → Bytes) : Nat :=
  tableLoop (fun t => signAndVerify cfg P C junk payload (m t) t.opts t.vopts) 1 critTable

/-- `indef_array_and_map_test` (test/t_cose_test.c:1627-1662): which check failed
(1, 2, 3; the code adds the result to 1000 times that), or 0. -/
def indefTest (cfg : Config) (P : QParams) (C : Crypto) (junk : Junk) (payload : Bytes)
    (m1 m2 m3 : Bytes) : Nat :=
  if signAndVerify cfg P C junk payload m1 (2 ^ indefinite) 0 ≠ .ok () then 1
  else if signAndVerify cfg P C junk payload m2 (2 ^ indefinite ||| 2 ^ unknownCritUint) 0 ≠
      .error .unknownCriticalParameter then 2
  else if signAndVerify cfg P C junk payload m3 (2 ^ indefinite ||| 2 ^ allParameters) 0 ≠ .ok () then
    3
  else 0

/-- `all_header_parameters_test` (test/t_cose_test.c:770-836). The result of the
verification is not looked at by the code; parameters that were not returned are
`none` here (uninitialised in the code, so the outcome is undefined then: 7). -/
def allHeaderParametersTest (cfg : Config) (P : QParams) (C : Crypto) (junk : Junk)
    (payload m : Bytes) : Nat :=
  let me := (SignCtx.init shortCircuitFlag algES256).setKey Key.null (.data [0x31, 0x31])
  match (TestMsg.sign cfg C me .nil (2 ^ allParameters) (.data payload) m).1 with
  | .error _ => 1
  | .ok r =>
    match (sign1Verify cfg P C junk (VerifyCtx.init shortCircuitFlag) r.bytes true true).params with
    | none => 7
    | some p =>
      if p.kid.map (·.bytes) ≠ some shortCircuitKid then 2
      else if p.alg ≠ algES256 then 3
      else if cfg.disableContentType = false ∧ p.ctUint ≠ 1 then 4
      else if p.iv.map (·.bytes) ≠ some sIv then 5
      else if p.partialIv.map (·.bytes) ≠ some sPartialIv then 6
      else 0

end TCose.SuiteTest
