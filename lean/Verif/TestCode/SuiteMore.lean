import Verif.TestCode.Suite
import Verif.TCose.TwoStep
import Verif.TCose.Sign

/-!
# test/t_cose_test.c: the remaining tests

The tests that sign and verify with short-circuit signatures, with the return values
of the code.  Every stack buffer that a call writes to is a parameter of its own
(uninitialised memory; the code uses some of them several times, which is an
instance).  Errors of `QCBOREncode_Finish` are not numbered (the code adds QCBOR's
number to 3000 or 4000; here 0 is added and one more, so that they never look like a
success).
-/

namespace TCose

/-- The numbers of the error codes (inc/t_cose/t_cose_common.h:250-414). The two codes
of the model that are not in the code get numbers that are not in use. -/
def Err.no : Err → Nat
  | .unsupportedSigningAlg => 1 | .makingProtected => 2 | .unsupportedHash => 3
  | .hashGeneralFail => 4 | .hashBufferSize => 5 | .sigBufferSize => 6
  | .sign1Format => 8 | .cborNotWellFormed => 9 | .parameterCbor => 10 | .noAlgId => 11
  | .noKid => 12 | .sigVerify => 13 | .badShortCircuitKid => 14 | .invalidArgument => 15
  | .insufficientMemory => 16 | .fail => 17 | .tamperingDetected => 18 | .unknownKey => 19
  | .wrongTypeOfKey => 20 | .sigStruct => 21 | .shortCircuitSig => 22 | .sigFail => 23
  | .cborFormatting => 24 | .tooSmall => 25 | .tooManyParameters => 26
  | .unknownCriticalParameter => 27 | .shortCircuitSigDisabled => 28
  | .incorrectKeyForLib => 29 | .nonIntegerAlgId => 30 | .badContentType => 31
  | .incorrectlyTagged => 32 | .emptyKey => 33 | .duplicateParameter => 34
  | .parameterNotProtected => 35 | .critParameter => 36 | .tooManyTags => 37
  | .needAuxiliaryBuffer => 38 | .auxiliaryBufferSize => 39
  | .modelHang => 1000 | .modelUB => 1001

end TCose

namespace TCose.SuiteTest
open TestMsg

/-- A result as a number: `T_COSE_SUCCESS` is 0. -/
def resNo : Except Err Unit → Int
  | .ok () => 0
  | .error x => x.no

/-- `q_useful_buf_head` (inc/t_cose/q_useful_buf.h:126-130; `UsefulBuf_Head` of QCBOR): the
first `n` octets, or nothing if there are not as many. -/
def bufHead (b : Bytes) (n : Nat) : Bytes := if n > b.length then [] else b.take n

/-- `q_useful_buf_tail` (inc/t_cose/q_useful_buf.h:132-136; `UsefulBuf_Tail` of QCBOR): all
but the first `n` octets, or nothing if there are not as many. -/
def bufTail (b : Bytes) (n : Nat) : Bytes := if n > b.length then [] else b.drop n

/-- `q_useful_buf_find_bytes` (inc/t_cose/q_useful_buf.h:150-155; `UsefulBuf_FindBytes` of
QCBOR): where `f` first occurs in `s`. -/
def findBytes (s f : Bytes) : Option Nat :=
  (List.range (s.length + 1 - f.length)).find? fun p => decide ((s.drop p).take f.length = f)

/-- `s_input_payload` (test/t_cose_test.c:21-23). -/
def content : Bytes :=
  [0x54, 0x68, 0x69, 0x73, 0x20, 0x69, 0x73, 0x20, 0x74, 0x68, 0x65, 0x20, 0x63, 0x6f, 0x6e,
   0x74, 0x65, 0x6e, 0x74, 0x2e]

/-- `"some aad"` (test/t_cose_test.c:111, 130, 308). -/
def someAad : Bytes := [0x73, 0x6f, 0x6d, 0x65, 0x20, 0x61, 0x61, 0x64]

/-- `"home aad"` (test/t_cose_test.c:328). -/
def homeAad : Bytes := [0x68, 0x6f, 0x6d, 0x65, 0x20, 0x61, 0x61, 0x64]

/-- `"payload"` (test/t_cose_test.c:391, 578, 1043, 1543). -/
def payloadText : Bytes := [0x70, 0x61, 0x79, 0x6c, 0x6f, 0x61, 0x64]

/-- `hash_of_tbs` (test/t_cose_test.c:89-93, 218-222). -/
def hashOfTbs : Bytes :=
  [0x4c, 0x33, 0x63, 0xb4, 0x99, 0xe1, 0xda, 0xc4, 0xaa, 0xfc, 0x8d, 0x69, 0x23, 0xf1, 0xca, 0x65,
   0x77, 0xdf, 0xda, 0x80, 0xda, 0x24, 0xe5, 0x4f, 0xb9, 0x24, 0x24, 0x90, 0x64, 0x82, 0x7c, 0x88]

/-- The signer of the tests: short-circuit signatures, ES256, no key. -/
def signer : SignCtx := SignCtx.init shortCircuitFlag algES256

/-- The verifier of the tests. -/
def verifier : VerifyCtx := VerifyCtx.init shortCircuitFlag

section
variable (cfg : Config) (P : QParams) (C : Crypto) (junk : Junk)

/-- `short_circuit_self_test`, the part with additional data
(test/t_cose_test.c:102-144). `signAad` is the function for signing, so that the test
can be run with another one. -/
def selfTestAad (signAad : SignCtx → UB → UB → Mem → Except Err UB) (m : Bytes) : Int :=
  match signAad signer (.data content) (.data someAad) (.buf m) with
  | .error x => 1000 + x.no
  | .ok r =>
    let v := sign1VerifyAad cfg P C junk verifier r.bytes (.data someAad) true false
    match v.res with
    | .error x => 2000 + x.no
    | .ok () => if v.payload.map (·.ub.bytes) ≠ some content then 3000 else 0

/-- `short_circuit_self_test` (test/t_cose_test.c:28-145). -/
def selfTest (m1 m2 : Bytes) : Int :=
  match (sign1Sign cfg C signer (.data content) (.buf m1)).1 with
  | .error x => 1000 + x.no
  | .ok r =>
    let v := sign1Verify cfg P C junk verifier r.bytes true false
    match v.res with
    | .error x => 2000 + x.no
    | .ok () =>
      if v.payload.map (·.ub.bytes) ≠ some content then 3000
      else if hashOfTbs ≠ bufTail r.bytes (r.bytes.length - 32) then 4000
      else selfTestAad cfg P C junk
        (fun me a b out => (sign1SignAad cfg C me a b out).1) m2

/-- `short_circuit_self_detached_content_test` (test/t_cose_test.c:150-232). The
comparison of the payload (lines 201-204) is of a constant with its own copy (line 185). -/
def detachedTest (m : Bytes) : Int :=
  match (sign1SignDetached cfg C signer .nil (.data content) (.buf m)).1 with
  | .error x => 1000 + x.no
  | .ok r =>
    let v := sign1VerifyDetached cfg P C junk verifier r.bytes .nil (.data content) false
    match v.res with
    | .error x => 2000 + x.no
    | .ok () =>
      if hashOfTbs ≠ bufTail r.bytes (r.bytes.length - 32) then 4000 else 0

/-- `short_circuit_verify_fail_test` (test/t_cose_test.c:238-339). -/
def verifyFailTest (m1 m2 : Bytes) : Int :=
  match (sign1Sign cfg C signer (.data content) (.buf m1)).1 with
  | .error x => 1000 + x.no
  | .ok r =>
    match findBytes r.bytes content with
    | none => 6000
    | some p =>
      let v := sign1Verify cfg P C junk verifier (r.bytes.set p 0x68) true false
      if v.res ≠ .error .sigVerify then 4000 + resNo v.res
      else
        match (sign1SignAad cfg C signer (.data content) (.data someAad) (.buf m2)).1 with
        | .error x => 1000 + x.no
        | .ok r =>
          let v := sign1VerifyAad cfg P C junk verifier r.bytes (.data homeAad) true false
          if v.res ≠ .error .sigVerify then 4000 + resNo v.res else 0

/-- `short_circuit_signing_error_conditions_test` (test/t_cose_test.c:345-417). The
result of `t_cose_sign1_encode_parameters` at line 388 is not looked at. `m1` to `m3`
are the buffer of 300 octets, `m4` the one of 15. -/
def signingErrorsTest (m1 m2 m3 m4 : Bytes) : Int :=
  if (sign1Sign cfg C (SignCtx.init shortCircuitFlag 0) (.data content) (.buf m1)).1 ≠
      .error .unsupportedSigningAlg then -1
  else if (sign1Sign cfg C (SignCtx.init shortCircuitFlag (-4444444)) (.data content)
      (.buf m2)).1 ≠ .error .unsupportedSigningAlg then -2
  else
    let (_, me, e) := sign1EncodeParameters cfg signer (Enc.init (.buf m3))
    let e := (e.addText payloadText).closeMap
    if (sign1EncodeSignature cfg C me e).1 ≠ .error .cborFormatting then -3
    else if (sign1Sign cfg C signer (.data content) (.buf m4)).1 ≠ .error .tooSmall then -4
    else 0

/-- The map of claims (test/t_cose_test.c:449-458, 1221-1230, 1450-1459). -/
def claims : List Content :=
  [.map
    [.int 1, .text [0x63, 0x6f, 0x61, 0x70, 0x3a, 0x2f, 0x2f, 0x61, 0x73, 0x2e, 0x65, 0x78, 0x61,
       0x6d, 0x70, 0x6c, 0x65, 0x2e, 0x63, 0x6f, 0x6d],
     .int 2, .text [0x65, 0x72, 0x69, 0x6b, 0x77],
     .int 3, .text [0x63, 0x6f, 0x61, 0x70, 0x3a, 0x2f, 0x2f, 0x6c, 0x69, 0x67, 0x68, 0x74, 0x2e,
       0x65, 0x78, 0x61, 0x6d, 0x70, 0x6c, 0x65, 0x2e, 0x63, 0x6f, 0x6d],
     .int 4, .int 1444064944, .int 5, .int 1443944944, .int 6, .int 1443944944,
     .int 7, .bytes [0x0b, 0x71]]]

/-- The short map of claims (test/t_cose_test.c:1393-1395). -/
def shortClaims : List Content :=
  [.map
    [.int 1, .text [0x63, 0x6f, 0x61, 0x70, 0x3a, 0x2f, 0x2f, 0x61, 0x73, 0x2e, 0x65, 0x78, 0x61,
       0x6d, 0x70, 0x6c, 0x65, 0x2e, 0x63, 0x6f, 0x6d]]]

/-- `rfc8392_payload_bytes` (test/t_cose_test.c:493-501, 1265-1273). -/
def rfc8392 : Bytes :=
  [0x58, 0x50, 0xa7, 0x01, 0x75, 0x63, 0x6f, 0x61, 0x70, 0x3a, 0x2f,
   0x2f, 0x61, 0x73, 0x2e, 0x65, 0x78, 0x61, 0x6d, 0x70, 0x6c, 0x65,
   0x2e, 0x63, 0x6f, 0x6d, 0x02, 0x65, 0x65, 0x72, 0x69, 0x6b, 0x77,
   0x03, 0x78, 0x18, 0x63, 0x6f, 0x61, 0x70, 0x3a, 0x2f, 0x2f, 0x6c,
   0x69, 0x67, 0x68, 0x74, 0x2e, 0x65, 0x78, 0x61, 0x6d, 0x70, 0x6c,
   0x65, 0x2e, 0x63, 0x6f, 0x6d, 0x04, 0x1a, 0x56, 0x12, 0xae, 0xb0,
   0x05, 0x1a, 0x56, 0x10, 0xd9, 0xf0, 0x06, 0x1a, 0x56, 0x10, 0xd9,
   0xf0, 0x07, 0x42, 0x0b, 0x71]

/-- Making a message in two steps behind tags (test/t_cose_test.c:437-472, 565-592,
1205-1244, 1375-1409, 1434-1473): the octets, or the number to return. -/
def makeTwoStep (me : SignCtx) (ts : List Nat) (cs : List Content) (m : Bytes) : Except Int Bytes :=
  let e := ts.foldl Enc.addTag (Enc.init (.buf m))
  match sign1EncodeParameters cfg me e with
  | (.error x, _, _) => .error (1000 + x.no)
  | (.ok (), me, e) =>
    match sign1EncodeSignature cfg C me (runAll cs e) with
    | (.error x, _, _) => .error (2000 + x.no)
    | (.ok (), _, e) =>
      match e.finish with
      | .error _ => .error 3001
      | .ok r => .ok r.bytes

/-- The comparison with the expected octets (test/t_cose_test.c:478-511,
1250-1283). -/
def compareCwt (first : Bytes) (r : Bytes) : Option Int :=
  if bufHead r first.length ≠ first then some (-1)
  else if bufHead (bufTail r (first.length + 36)) rfc8392.length ≠ rfc8392 then some (-2)
  else none

/-- `cwt_first_part_bytes` (test/t_cose_test.c:478). -/
def cwtFirst : Bytes := [0xd2, 0x84, 0x43, 0xa1, 0x01, 0x26]

/-- `short_circuit_make_cwt_test` (test/t_cose_test.c:423-543). -/
def makeCwtTest (m : Bytes) : Int :=
  match makeTwoStep cfg C signer [] claims m with
  | .error n => n
  | .ok r =>
    match compareCwt cwtFirst r with
    | some n => n
    | none =>
      let v := sign1Verify cfg P C junk verifier r true false
      match v.res with
      | .error x => 4000 + x.no
      | .ok () => if v.payload.map (·.ub.bytes) ≠ some (bufTail rfc8392 2) then 5000 else 0

/-- `short_circuit_decode_only_test` (test/t_cose_test.c:549-636). `m2` is
`expected_payload_buffer`, of 10 octets. -/
def decodeOnlyTest (m1 m2 : Bytes) : Int :=
  match makeTwoStep cfg C signer [] [.text payloadText] m1 with
  | .error n => n
  | .ok r =>
    let p := r.length - 64
    let v := sign1Verify cfg P C junk (VerifyCtx.init (2 ^ optDecodeOnly))
      (r.set p (r.getD p 0 + 1)) true false
    match v.res with
    | .error x => 4000 + x.no
    | .ok () =>
      match ((Enc.init (.buf m2)).addText payloadText).finish with
      | .error _ => 5000
      | .ok w => if v.payload.map (·.ub.bytes) ≠ some w.bytes then 5000 else 0

/-- The first 32 octets of `rfc8152_example_2_1` (test/t_cose_test.c:657-661). -/
def example21 : Bytes :=
  [0xd2, 0x84, 0x43, 0xa1, 0x01, 0x26, 0xa1, 0x04, 0x42, 0x31, 0x31, 0x54, 0x54, 0x68, 0x69, 0x73,
   0x20, 0x69, 0x73, 0x20, 0x74, 0x68, 0x65, 0x20, 0x63, 0x6f, 0x6e, 0x74, 0x65, 0x6e, 0x74, 0x2e]

/-- `cose_example_test` (test/t_cose_test.c:676-715). -/
def coseExampleTest (m : Bytes) : Int :=
  match (sign1Sign cfg C (signer.setKey Key.null (.data [0x31, 0x31])) (.data content) (.buf m)).1 with
  | .error x => x.no
  | .ok r => if bufHead r.bytes 32 ≠ example21 then -1000 else 0

/-- `"text/plain"` (test/t_cose_test.c:1008, 1038). -/
def textPlain : Bytes := [0x74, 0x65, 0x78, 0x74, 0x2f, 0x70, 0x6c, 0x61, 0x69, 0x6e]

/-- `content_type_test` (test/t_cose_test.c:962-1050). -/
def contentTypeTest (m1 m2 m3 : Bytes) : Int :=
  match (sign1Sign cfg C (signer.setContentTypeUint 42) (.data content) (.buf m1)).1 with
  | .error _ => 1
  | .ok r =>
    let v := sign1Verify cfg P C junk verifier r.bytes true true
    if v.res ≠ .ok () then 2
    else if v.params.map (·.ctUint) ≠ some 42 then 5
    else
      match (sign1Sign cfg C (signer.setContentTypeTstr (some textPlain)) (.data content)
          (.buf m2)).1 with
      | .error _ => 1
      | .ok r =>
        let v := sign1Verify cfg P C junk verifier r.bytes true true
        if v.res ≠ .ok () then 2
        else if (v.params.bind (·.ctTstr)).map (·.bytes) ≠ some textPlain then 6
        else if (sign1Sign cfg C ((signer.setContentTypeTstr (some textPlain)).setContentTypeUint 42)
            (.data payloadText) (.buf m3)).1 ≠ .error .duplicateParameter then 1
        else 0

/-- `sign1_sample_inputs` (test/t_cose_test.c:1059-1082) without the terminating row. -/
def samples : List (Bytes × Except Err Unit) :=
  [([0x84, 0x40, 0xa0, 0x5f, 0x00, 0xff, 0x40], .error .sign1Format),
   ([0x84, 0x40, 0xa3, 0x40, 0x40], .error .parameterCbor),
   ([0x83, 0x40, 0xa0, 0x40], .error .sign1Format),
   ([0x84, 0x40, 0xa0, 0x40, 0x4f], .error .cborNotWellFormed),
   ([0x84, 0x40, 0xa0, 0x4f, 0x40], .error .cborNotWellFormed),
   ([0x84, 0x4f, 0xa0, 0x40, 0x40], .error .cborNotWellFormed),
   ([0x9f, 0x40, 0xbf, 0xff, 0x40, 0x40], .error .sign1Format),
   ([0x9f, 0x40, 0xbf, 0xff, 0x40, 0x40, 0xff], .ok ()),
   ([0x84, 0x40, 0xa0, 0x40, 0x40], .ok ()),
   ([0x3c], .error .cborNotWellFormed)]

/-- The loop of `sign1_structure_decode_test`; `i` is the index of the first sample. -/
def sampleLoop : Nat → List (Bytes × Except Err Unit) → Int
  | _, [] => 0
  | i, s :: r =>
    let res := (sign1Verify cfg P C junk (VerifyCtx.init (2 ^ optDecodeOnly)) s.1 true false).res
    if res ≠ s.2 then (i + 1) * 100 + resNo res else sampleLoop (i + 1) r

/-- `sign1_structure_decode_test` (test/t_cose_test.c:1088-1112). -/
def structureTest : Int := sampleLoop cfg P C junk 0 samples

/-- `short_circuit_hash_fail_test` (test/t_cose_test.c:1128-1182). `A n` is the adapter
with `hash_test_mode` set to `n`. -/
def hashFailTest (A : Nat → Crypto) (m1 m2 : Bytes) : Int :=
  let r1 := (sign1Sign cfg (A 1) signer (.data content) (.buf m1)).1
  if r1 ≠ .error .hashGeneralFail then 2000 + resNo (r1.map fun _ => ())
  else
    let r2 := (sign1Sign cfg (A 2) signer (.data content) (.buf m2)).1
    if r2 ≠ .error .hashGeneralFail then 2000 + resNo (r2.map fun _ => ())
    else 0

/-- `cwt_first_part_bytes` with the tags (test/t_cose_test.c:1250). -/
def cwtFirstTagged : Bytes :=
  [0xd9, 0x03, 0x84, 0xd9, 0x03, 0x85, 0xd2, 0x84, 0x43, 0xa1, 0x01, 0x26]

/-- `cwt_first_part_bytes1` (test/t_cose_test.c:1480). -/
def cwtFirstOmitted : Bytes :=
  [0xd9, 0x03, 0x84, 0xd9, 0x03, 0x85, 0x84, 0x43, 0xa1, 0x01, 0x26]

/-- `tags_test`, first message (test/t_cose_test.c:1202-1368). -/
def tagsTest1 (m : Bytes) : Int :=
  match makeTwoStep cfg C signer [900, 901] claims m with
  | .error n => n
  | .ok r =>
    match compareCwt cwtFirstTagged r with
    | some n => n
    | none =>
      let v := sign1Verify cfg P C junk verifier r true false
      match v.res with
      | .error x => 4000 + x.no
      | .ok () =>
        if v.ctx.getNthTag 0 ≠ some 901 then -3
        else if v.ctx.getNthTag 1 ≠ some 900 then -3
        else if v.ctx.getNthTag 2 ≠ some tagInvalid then -4
        else if v.payload.map (·.ub.bytes) ≠ some (bufTail rfc8392 2) then 5000
        else
          let v := sign1Verify cfg P C junk
            (VerifyCtx.init (shortCircuitFlag ||| 2 ^ optTagRequired)) r true false
          if v.res ≠ .ok () then 4000 + resNo v.res
          else
            let v := sign1Verify cfg P C junk
              (VerifyCtx.init (shortCircuitFlag ||| 2 ^ optTagProhibited)) r true false
            if v.res ≠ .error .incorrectlyTagged then 4000 + resNo v.res
            else 0

/-- `tags_test`, second message (test/t_cose_test.c:1372-1427). -/
def tagsTest2 (m : Bytes) : Int :=
  match makeTwoStep cfg C signer [900, 901, 902, 903, 904] shortClaims m with
  | .error n => n
  | .ok r =>
    let v := sign1Verify cfg P C junk verifier r true false
    if v.res ≠ .error .tooManyTags then 4000 + resNo v.res else 0

/-- `tags_test`, third message (test/t_cose_test.c:1431-1526). -/
def tagsTest3 (m : Bytes) : Int :=
  match makeTwoStep cfg C (SignCtx.init (shortCircuitFlag ||| 2 ^ optOmitTag) algES256)
      [900, 901] claims m with
  | .error n => n
  | .ok r =>
    if bufHead r cwtFirstOmitted.length ≠ cwtFirstOmitted then -1
    else
      let v := sign1Verify cfg P C junk
        (VerifyCtx.init (shortCircuitFlag ||| 2 ^ optTagRequired)) r true false
      if v.res ≠ .error .incorrectlyTagged then 4000 + resNo v.res
      else
        let v := sign1Verify cfg P C junk
          (VerifyCtx.init (shortCircuitFlag ||| 2 ^ optTagProhibited)) r true false
        if v.res ≠ .ok () then 4000 + resNo v.res else 0

/-- `tags_test` (test/t_cose_test.c:1190-1527). -/
def tagsTest (m1 m2 m3 : Bytes) : Int :=
  if tagsTest1 cfg P C junk m1 ≠ 0 then tagsTest1 cfg P C junk m1
  else if tagsTest2 cfg P C junk m2 ≠ 0 then tagsTest2 cfg P C junk m2
  else tagsTest3 cfg P C junk m3

/-- `get_size_test` (test/t_cose_test.c:1530-1621). `cap` is the size given with the
NULL pointer, `SIZE_MAX` in the code. The result of the second `QCBOREncode_Finish` is
not looked at; had it failed, the length would be undefined (-9 here). -/
def getSizeTest (cap : Nat) (m1 m2 : Bytes) : Int :=
  match sign1EncodeParameters cfg signer (Enc.init (.null cap)) with
  | (.error x, _, _) => 2000 + x.no
  | (.ok (), me, e) =>
    match sign1EncodeSignature cfg C me (e.addEncoded (.data payloadText)) with
    | (.error x, _, _) => 3000 + x.no
    | (.ok (), _, e) =>
      match e.finish with
      | .error _ => 4001
      | .ok size =>
        if size.len < 32 + payloadText.length + 64 ∨ size.len > 32 + payloadText.length + 64 + 30 then
          -1
        else
          match sign1EncodeParameters cfg signer (Enc.init (.buf m1)) with
          | (.error x, _, _) => 2000 + x.no
          | (.ok (), me, e) =>
            match sign1EncodeSignature cfg C me (e.addEncoded (.data payloadText)) with
            | (.error x, _, _) => 3000 + x.no
            | (.ok (), _, e) =>
              match e.finish with
              | .error _ => -9
              | .ok r =>
                if r.len ≠ size.len then -2
                else
                  match (sign1Sign cfg C signer (.data payloadText) (.buf m2)).1 with
                  | .error x => 7000 + x.no
                  | .ok r => if r.len ≠ size.len then -3 else 0

end
end TCose.SuiteTest
