import Verif.TCose.Verify
import Verif.TCose.TwoStep
import Verif.Adapters.Test
import Verif.Crypto.Toy

/-!
# The model against the project's own test suite

These are tests, not proofs: the inputs and expected results of /repo/test are run
through the model, to check that the model says what the authors of the code
observed when they ran it.  No property theorem depends on this file.
-/

namespace TCose.Conformance
open TCose

/-- The uninitialised variables. -/
def junk : Junk := ⟨.nil, .nil, .nil⟩

def verify (msg : Bytes) (flags : Nat) : VRes :=
  sign1Verify Config.full QParams.std toyCrypto junk (VerifyCtx.init flags) msg true true

/-- The verification options as used in the tests. -/
def allowShortCircuit : Nat := 1
def tagRequired : Nat := 4
def decodeOnly : Nat := 8
def tagProhibited : Nat := 16
def unknownCritAllowed : Nat := 32

/-! ## `sign1_sample_inputs`, test/t_cose_test.c:1059-1083 -/

example : (verify [0x84,0x40,0xa0,0x5f,0x00,0xff,0x40] decodeOnly).res = .error .sign1Format := by
  decide +kernel
example : (verify [0x84,0x40,0xa3,0x40,0x40] decodeOnly).res = .error .parameterCbor := by
  decide +kernel
example : (verify [0x83,0x40,0xa0,0x40] decodeOnly).res = .error .sign1Format := by decide +kernel
example : (verify [0x84,0x40,0xa0,0x40,0x4f] decodeOnly).res = .error .cborNotWellFormed := by
  decide +kernel
example : (verify [0x84,0x40,0xa0,0x4f,0x40] decodeOnly).res = .error .cborNotWellFormed := by
  decide +kernel
example : (verify [0x84,0x4f,0xa0,0x40,0x40] decodeOnly).res = .error .cborNotWellFormed := by
  decide +kernel
example : (verify [0x9f,0x40,0xbf,0xff,0x40,0x40] decodeOnly).res = .error .sign1Format := by
  decide +kernel
example : (verify [0x9f,0x40,0xbf,0xff,0x40,0x40,0xff] decodeOnly).res = .ok () := by decide +kernel
example : (verify [0x84,0x40,0xa0,0x40,0x40] decodeOnly).res = .ok () := by decide +kernel
example : (verify [0x3c] decodeOnly).res = .error .cborNotWellFormed := by decide +kernel

/-! ## `bad_parameters_tests_table` and `crit_tests_table`,
test/t_cose_test.c:847-939, with the messages of test/t_cose_make_test_messages.c -/

/-- A byte string of less than 256 octets. -/
def bstr (b : Bytes) : Bytes :=
  if b.length < 24 then UInt8.ofNat (0x40 + b.length) :: b
  else 0x58 :: UInt8.ofNat b.length :: b

/-- The entry for the short-circuit key id. -/
def kidEntry : Bytes := 0x04 :: bstr shortCircuitKid

def payload : Bytes := [0x70,0x61,0x79,0x6c,0x6f,0x61,0x64]

/-- `t_cose_test_message_sign1_sign` (test/t_cose_make_test_messages.c:615-658), given
the protected bucket (`none`: left out) and the octets of the unprotected one. -/
def message (prot : Option Bytes) (unprot : Bytes) : Bytes :=
  let protB := prot.getD []
  let sig :=
    match createTbsHash Config.full toyCrypto algES256 (.data protB) .nil (.data payload) 64 with
    | .ok h => (scSign algES256 h 200).toOption.getD []
    | .error _ => []
  [0xd2, UInt8.ofNat (0x80 + 4)] ++ (match prot with | some p => bstr p | none => []) ++ unprot ++
    bstr payload ++ bstr sig

/-- `run_test_sign_and_verify` (test/t_cose_test.c:718-766). -/
def run (prot : Option Bytes) (unprot : Bytes) (flags : Nat) : Except Err Unit :=
  (verify (message prot unprot) (allowShortCircuit + flags)).res

def protAlg : Bytes := [0xa1,0x01,0x26]
def unprotKid : Bytes := 0xa1 :: kidEntry

example : run (some protAlg) unprotKid 0 = .ok () := by decide +kernel
/- EMPTY_PROTECTED_PARAMETERS -/
example : run (some []) unprotKid 0 = .error .unsupportedSigningAlg := by decide +kernel
/- UNCLOSED_PROTECTED -/
example : run (some [0xa1]) unprotKid 0 = .error .parameterCbor := by decide +kernel
/- DUP_CONTENT_ID -/
example : run (some [0xa2,0x01,0x26,0x03,0x03]) (0xa2 :: kidEntry ++ [0x03,0x03]) 0 =
    .error .duplicateParameter := by decide +kernel
/- TOO_LARGE_CONTENT_TYPE -/
example : run (some protAlg) (0xa2 :: kidEntry ++ [0x03,0x1a,0x00,0x01,0x00,0x00]) 0 =
    .error .badContentType := by decide +kernel
/- NOT_WELL_FORMED_2: 55: [{66: "hi", break 67, "bye"}] -/
example : run (some protAlg) ([0xa2,0x18,0x37,0x81,0xa2,0x18,0x42,0x62,0x68,0x69,0xff,0x18,0x43,
    0x63,0x62,0x79,0x65] ++ kidEntry) 0 = .error .cborNotWellFormed := by decide +kernel
/- KID_IN_PROTECTED -/
example : run (some [0xa2,0x01,0x26,0x04,0x43,0x6b,0x69,0x64]) unprotKid 0 =
    .error .duplicateParameter := by decide +kernel
/- TOO_MANY_UNKNOWN -/
example : run (some protAlg) (0xac :: ((List.range 11).flatMap fun i => [UInt8.ofNat (10+i), 0xf5]) ++
    kidEntry) 0 = .error .tooManyParameters := by decide +kernel
/- UNPROTECTED_NOT_MAP -/
example : run (some protAlg) (0x81 :: bstr shortCircuitKid) 0 = .error .parameterCbor := by
  decide +kernel
/- BAD_CRIT_PARAMETER -/
example : run (some protAlg) ([0xa2,0x02,0x62,0x68,0x69] ++ kidEntry) 0 = .error .critParameter := by
  decide +kernel
/- NOT_WELL_FORMED_1 -/
example : run (some protAlg) ([0xa1] ++ List.replicate 6 0x78 ++ kidEntry) 0 =
    .error .cborNotWellFormed := by decide +kernel
/- NO_UNPROTECTED_PARAMETERS -/
example : run (some protAlg) [] 0 = .error .parameterCbor := by decide +kernel
/- NO_PROTECTED_PARAMETERS -/
example : run none unprotKid 0 = .error .parameterCbor := by decide +kernel
/- EXTRA_PARAMETER: 55: [{66: "hi"}] -/
example : run (some protAlg) ([0xa2,0x18,0x37,0x81,0xa1,0x18,0x42,0x62,0x68,0x69] ++ kidEntry) 0 =
    .ok () := by decide +kernel
/- PARAMETER_LABEL -/
example : run (some protAlg) (0xa2 :: bstr shortCircuitKid ++ bstr shortCircuitKid ++ kidEntry) 0 =
    .error .parameterCbor := by decide +kernel
/- BAD_PROTECTED -/
example : run (some [0x81,0x18,0x2a]) unprotKid 0 = .error .parameterCbor := by decide +kernel

/- CRIT_PARAMETER_EXIST -/
example : run (some ([0xa2,0x01,0x26,0x02,0x8a] ++ (List.range 10).map fun i => UInt8.ofNat (10+i)))
    unprotKid 0 = .ok () := by decide +kernel
/- TOO_MANY_CRIT_PARAMETER_EXIST -/
example : run (some ([0xa2,0x01,0x26,0x02,0x8b] ++ (List.range 11).map fun i => UInt8.ofNat (10+i)))
    unprotKid 0 = .error .critParameter := by decide +kernel
/- BAD_CRIT_LABEL -/
example : run (some [0xa2,0x01,0x26,0x02,0x81,0xf5]) unprotKid 0 = .error .critParameter := by
  decide +kernel
/- UNKNOWN_CRIT_UINT_PARAMETER -/
def critUint : Bytes := [0xa3,0x01,0x26,0x18,0x2a,0x18,0x2b,0x02,0x83,0x18,0x2a,0x18,0x2b,0x18,0x2c]
example : run (some critUint) unprotKid 0 = .error .unknownCriticalParameter := by decide +kernel
example : run (some critUint) unprotKid unknownCritAllowed = .ok () := by decide +kernel
/- UNKNOWN_CRIT_TSTR_PARAMETER -/
def critTstr : Bytes := [0xa3,0x01,0x26,0x62,0x68,0x68,0x18,0x2b,0x02,0x83,0x62,0x68,0x68,0x61,0x68,
  0x63,0x68,0x68,0x68]
example : run (some critTstr) unprotKid 0 = .error .unknownCriticalParameter := by decide +kernel
example : run (some critTstr) unprotKid unknownCritAllowed = .ok () := by decide +kernel
/- CRIT_NOT_PROTECTED -/
example : run (some protAlg) ([0xa2,0x02,0x94] ++ ((List.range 10).flatMap fun i =>
    [0x18, UInt8.ofNat (100+i), 0x64,0x78,0x78,0x78,0x78]) ++ kidEntry) 0 =
    .error .parameterNotProtected := by decide +kernel
/- EMPTY_CRIT_PARAMETER -/
example : run (some [0xa2,0x01,0x26,0x02,0x80]) unprotKid 0 = .error .critParameter := by
  decide +kernel
/- TOO_MANY_TSTR_CRIT_LABLELS -/
example : run (some ([0xa2,0x01,0x26,0x02,0x8b] ++ List.replicate 11 0x60)) unprotKid 0 =
    .error .critParameter := by decide +kernel

/-! ## `all_header_parameters_test`, test/t_cose_test.c:770-838 -/

def allParams : Bytes := 0xa5 :: kidEntry ++ [0x05,0x42,0x69,0x76,
  0x06,0x4a,0x70,0x61,0x72,0x74,0x69,0x61,0x6c,0x5f,0x69,0x76, 0x03,0x01,
  0x18,0x37,0x82,0xa2,0x18,0x42,0x62,0x68,0x69,0x18,0x43,0x63,0x62,0x79,0x65,0x81,0xa0]

example :
    let r := (verify (message (some protAlg) allParams) allowShortCircuit).params
    r.map (·.alg) = some algES256 ∧ r.map (·.kid.map (·.bytes)) = some (some shortCircuitKid) ∧
    r.map (·.iv.map (·.bytes)) = some (some [0x69,0x76]) ∧
    r.map (·.partialIv.map (·.bytes)) =
      some (some [0x70,0x61,0x72,0x74,0x69,0x61,0x6c,0x5f,0x69,0x76]) ∧
    r.map (·.ctUint) = some 1 := by decide +kernel

/-! ## `indef_array_and_map_test`, test/t_cose_test.c:1627-1662 -/

/-- The message with indefinite-length array. -/
def indef (prot unprot : Bytes) : Bytes :=
  [0xd2,0x9f] ++ (message (some prot) unprot).drop 2 ++ [0xff]

example : (verify (indef [0xbf,0x01,0x26,0xff] (0xbf :: kidEntry ++ [0xff])) allowShortCircuit).res =
    .ok () := by decide +kernel
example : (verify (indef [0xbf,0x01,0x26,0x18,0x2a,0x18,0x2b,0x02,0x9f,0x18,0x2a,0x18,0x2b,0x18,0x2c,
    0xff,0xff] (0xbf :: kidEntry ++ [0xff])) allowShortCircuit).res =
    .error .unknownCriticalParameter := by decide +kernel
example : (verify (indef [0xbf,0x01,0x26,0xff] (0xbf :: allParams.drop 1 ++ [0xff]))
    allowShortCircuit).res = .ok () := by decide +kernel

/-! ## `tags_test`, test/t_cose_test.c:1190-1525 -/

def tagged (tags : Bytes) : Bytes := tags ++ message (some protAlg) unprotKid
def t900 : Bytes := [0xd9,0x03,0x84]
def t901 : Bytes := [0xd9,0x03,0x85]

example : let r := verify (tagged (t900 ++ t901)) allowShortCircuit
    r.res = .ok () ∧ r.ctx.getNthTag 0 = some 901 ∧ r.ctx.getNthTag 1 = some 900 ∧
    r.ctx.getNthTag 2 = some tagInvalid := by decide +kernel
example : (verify (tagged (t900 ++ t901)) (allowShortCircuit + tagRequired)).res = .ok () := by
  decide +kernel
example : (verify (tagged (t900 ++ t901)) (allowShortCircuit + tagProhibited)).res =
    .error .incorrectlyTagged := by decide +kernel
example : (verify (tagged (t900 ++ t901 ++ [0xd9,0x03,0x86,0xd9,0x03,0x87,0xd9,0x03,0x88]))
    allowShortCircuit).res = .error .tooManyTags := by decide +kernel
example : (verify (t900 ++ t901 ++ (message (some protAlg) unprotKid).drop 1)
    (allowShortCircuit + tagRequired)).res = .error .incorrectlyTagged := by decide +kernel
example : (verify (t900 ++ t901 ++ (message (some protAlg) unprotKid).drop 1)
    (allowShortCircuit + tagProhibited)).res = .ok () := by decide +kernel

/-! ## Signing -/

/-- `s_input_payload` (test/t_cose_test.c), "This is the content." -/
def content : Bytes :=
  [0x54,0x68,0x69,0x73,0x20,0x69,0x73,0x20,0x74,0x68,0x65,0x20,0x63,0x6f,0x6e,0x74,0x65,0x6e,0x74,
   0x2e]

/-- The test adapter, with the bundled SHA-256. -/
def C : Crypto := testCrypto Config.full 0 (List.replicate 64 0)

def out (n : Nat) : Mem := .buf (List.replicate n 0)

def bytesOf (r : Except Err UB × SignCtx × Enc) : Bytes :=
  match r.1 with
  | .ok b => b.bytes
  | .error _ => []

/-- Short-circuit ES256 signing context; option bit 0. -/
def scCtx : SignCtx := SignCtx.init 1 algES256

/-- `hash_of_tbs` (test/t_cose_test.c:89-94), from the COSE-C test case
sign-pass-03.json: made by another implementation. -/
def hashOfTbs : Bytes :=
  [0x4c,0x33,0x63,0xb4,0x99,0xe1,0xda,0xc4,0xaa,0xfc,0x8d,0x69,0x23,0xf1,0xca,0x65,
   0x77,0xdf,0xda,0x80,0xda,0x24,0xe5,0x4f,0xb9,0x24,0x24,0x90,0x64,0x82,0x7c,0x88]

/- `short_circuit_self_test`, test/t_cose_test.c:28-146 -/
example : (bytesOf (sign1Sign Config.full C scCtx (.data content) (out 200))).reverse.take 32 =
    hashOfTbs.reverse := by decide +kernel
/- `short_circuit_self_detached_content_test`, test/t_cose_test.c:150-234 -/
example : (bytesOf (sign1SignDetached Config.full C scCtx .nil (.data content) (out 200))).reverse.take
    32 = hashOfTbs.reverse := by decide +kernel

/-- "some aad" -/
def someAad : Bytes := [0x73,0x6f,0x6d,0x65,0x20,0x61,0x61,0x64]
/-- "home aad" -/
def homeAad : Bytes := [0x68,0x6f,0x6d,0x65,0x20,0x61,0x61,0x64]

/- The tests call `t_cose_sign1_sign_aad` with the payload first
(test/t_cose_test.c:109-113), against the declaration, and verify with the aad in
its place: test/t_cose_test.c:115-146, 300-341. -/
example :
    let msg := bytesOf (sign1SignAad Config.full toyCrypto scCtx (.data content) (.data someAad)
      (out 200))
    let r := sign1VerifyAad Config.full QParams.std toyCrypto junk (VerifyCtx.init 1) msg (.data someAad)
      true false
    let r' := sign1VerifyAad Config.full QParams.std toyCrypto junk (VerifyCtx.init 1) msg
      (.data homeAad) true false
    r.res = .ok () ∧ r.payload.map (·.ub) = some (.data content) ∧ r'.res = .error .sigVerify := by
  decide +kernel

/- `short_circuit_signing_error_conditions_test`, test/t_cose_test.c:345-419 -/
example : (sign1Sign Config.full C (SignCtx.init 1 0) (.data content) (out 300)).1 =
    .error .unsupportedSigningAlg := by decide +kernel
example : (sign1Sign Config.full C (SignCtx.init 1 (-4444444)) (.data content) (out 300)).1 =
    .error .unsupportedSigningAlg := by decide +kernel
example : (sign1Sign Config.full C scCtx (.data content) (out 15)).1 = .error .tooSmall := by
  decide +kernel
example :
    let e := (sign1EncodeParameters Config.full scCtx (Enc.init (out 300))).2.2
    (sign1EncodeSignature Config.full C scCtx ((e.addText payload).closeMap)).1 =
      .error .cborFormatting := by decide +kernel

/- `short_circuit_hash_fail_test`, test/t_cose_test.c:1128-1181 -/
example : (sign1Sign Config.full (testCrypto Config.full 1 []) scCtx (.data content) (out 200)).1 =
    .error .hashGeneralFail := by decide +kernel
example : (sign1Sign Config.full (testCrypto Config.full 2 []) scCtx (.data content) (out 200)).1 =
    .error .hashGeneralFail := by decide +kernel

/- `cose_example_test` (RFC 8152 example C.2.1), test/t_cose_test.c:657-714 -/
example : (bytesOf (sign1Sign Config.full toyCrypto (scCtx.setKey Key.null (.data [0x31,0x31]))
    (.data content) (out 200))).take 32 =
    [0xD2,0x84,0x43,0xA1,0x01,0x26,0xA1,0x04,0x42,0x31,0x31,0x54,0x54,0x68,0x69,0x73,
     0x20,0x69,0x73,0x20,0x74,0x68,0x65,0x20,0x63,0x6F,0x6E,0x74,0x65,0x6E,0x74,0x2E] := by
  decide +kernel

/-! `content_type_test`, test/t_cose_test.c:962-1050 -/

example :
    let msg := bytesOf (sign1Sign Config.full toyCrypto (scCtx.setContentTypeUint 42) (.data content)
      (out 200))
    (verify msg 1).params.map (·.ctUint) = some 42 := by decide +kernel
/-- "text/plain" -/
def textPlain : Bytes := [0x74,0x65,0x78,0x74,0x2f,0x70,0x6c,0x61,0x69,0x6e]
example :
    let msg := bytesOf (sign1Sign Config.full toyCrypto (scCtx.setContentTypeTstr (some textPlain))
      (.data content) (out 200))
    (verify msg 1).params.map (·.ctTstr.map (·.bytes)) = some (some textPlain) := by decide +kernel
example : (sign1Sign Config.full toyCrypto ((scCtx.setContentTypeTstr (some textPlain)).setContentTypeUint
    42) (.data content) (out 200)).1 = .error .duplicateParameter := by decide +kernel

/- `sign_verify_make_cwt_test`, test/t_cose_sign_verify_test.c:419-550: the octets of
RFC 8392 up to the signature. -/
def asymKid : Bytes :=
  [0x41,0x73,0x79,0x6d,0x6d,0x65,0x74,0x72,0x69,0x63,0x45,0x43,0x44,0x53,0x41,0x32,0x35,0x36]
def cwt : List Content :=
  [.map [.int 1, .text [0x63,0x6f,0x61,0x70,0x3a,0x2f,0x2f,0x61,0x73,0x2e,0x65,0x78,0x61,0x6d,0x70,
    0x6c,0x65,0x2e,0x63,0x6f,0x6d],
    .int 2, .text [0x65,0x72,0x69,0x6b,0x77],
    .int 3, .text [0x63,0x6f,0x61,0x70,0x3a,0x2f,0x2f,0x6c,0x69,0x67,0x68,0x74,0x2e,0x65,0x78,0x61,
    0x6d,0x70,0x6c,0x65,0x2e,0x63,0x6f,0x6d],
    .int 4, .int 1444064944, .int 5, .int 1443944944, .int 6, .int 1443944944,
    .int 7, .bytes [0x0b,0x71]]]
def rfc8392 : Bytes :=
  [0xd2,0x84,0x43,0xa1,0x01,0x26,0xa1,0x04,0x52,0x41,0x73,0x79,
   0x6d,0x6d,0x65,0x74,0x72,0x69,0x63,0x45,0x43,0x44,0x53,0x41,
   0x32,0x35,0x36,0x58,0x50,0xa7,0x01,0x75,0x63,0x6f,0x61,0x70,
   0x3a,0x2f,0x2f,0x61,0x73,0x2e,0x65,0x78,0x61,0x6d,0x70,0x6c,
   0x65,0x2e,0x63,0x6f,0x6d,0x02,0x65,0x65,0x72,0x69,0x6b,0x77,
   0x03,0x78,0x18,0x63,0x6f,0x61,0x70,0x3a,0x2f,0x2f,0x6c,0x69,
   0x67,0x68,0x74,0x2e,0x65,0x78,0x61,0x6d,0x70,0x6c,0x65,0x2e,
   0x63,0x6f,0x6d,0x04,0x1a,0x56,0x12,0xae,0xb0,0x05,0x1a,0x56,
   0x10,0xd9,0xf0,0x06,0x1a,0x56,0x10,0xd9,0xf0,0x07,0x42,0x0b,
   0x71]
example :
    ((twoStepSign Config.full toyCrypto
      ((SignCtx.init 0 algES256).setKey ⟨.openssl, 1⟩ (.data asymKid)) .nil cwt (out 300)).toOption.map
        fun b => b.bytes.take rfc8392.length) = some rfc8392 := by decide +kernel

/-! `get_size_test`, test/t_cose_test.c:1530-1621 -/

example :
    (sign1Sign Config.full toyCrypto scCtx (.data payload) (.null sizeMax)).1.toOption.map (·.len) =
      some (bytesOf (sign1Sign Config.full toyCrypto scCtx (.data payload) (out 300))).length := by
  decide +kernel

/-! `sign_verify_bad_auxiliary_buffer`, test/t_cose_sign_verify_test.c:898-976 -/

/-- `signed_cose_made_by_pycose_eddsa` up to the signature, with some signature. -/
def eddsaMsg : Bytes :=
  [0xd2,0x84,0x43,0xa1,0x01,0x27,0xa0] ++ bstr payload ++ bstr (List.replicate 64 1)

example : (verify eddsaMsg 0).res = .error .needAuxiliaryBuffer := by decide +kernel
example : (sign1Verify Config.full QParams.std toyCrypto junk
    ((VerifyCtx.init 0).setAux Config.full (out 5)) eddsaMsg true true).res =
    .error .auxiliaryBufferSize := by decide +kernel
example : (sign1Sign Config.full toyCrypto (SignCtx.init 0 algEDDSA) (.data payload) (out 300)).1 =
    .error .needAuxiliaryBuffer := by decide +kernel
example : (sign1Sign Config.full toyCrypto ((SignCtx.init 0 algEDDSA).setAux Config.full (out 5))
    (.data payload) (out 300)).1 = .error .auxiliaryBufferSize := by decide +kernel
/- size query of `known_good_test`, test/t_cose_sign_verify_test.c:724-800 -/
example : let r := verify eddsaMsg decodeOnly
    r.res = .ok () ∧ 7 ≤ r.ctx.auxSize ∧ r.ctx.auxSize ≤ 37 := by decide +kernel

end TCose.Conformance
