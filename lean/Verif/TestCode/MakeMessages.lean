import Verif.TCose.Sign

/-!
# test/t_cose_make_test_messages.c

The test suite's own signer ("a hacked-up version of t_cose_sign1_sign.c"),
which makes good and bad messages for the tests of the verifier. Only calls with
a real output buffer are modelled (the tests make no others).
-/

namespace TCose.TestMsg
open Enc (PRef Place)

/-! Bits of the `T_COSE_TEST_...` options (test/t_cose_make_test_messages.h:42-146). -/
def parameterLabel : Nat := 31
def badCritParameter : Nat := 30
def extraParameter : Nat := 29
def noProtected : Nat := 28
def noUnprotected : Nat := 27
def notWellFormed1 : Nat := 26
def notWellFormed2 : Nat := 25
def unknownCritUint : Nat := 24
def critExist : Nat := 23
def tooManyCritExist : Nat := 22
def badCritLabel : Nat := 21
def critNotProtected : Nat := 20
def tooManyUnknown : Nat := 19
def unknownCritTstr : Nat := 18
def allParameters : Nat := 17
def badProtected : Nat := 16
def unprotectedNotMap : Nat := 15
def kidInProtected : Nat := 14
def tooLargeContentType : Nat := 13
def unclosedProtected : Nat := 12
def dupContentId : Nat := 11
def emptyProtected : Nat := 10
def emptyCrit : Nat := 9
def tooManyTstrCrit : Nat := 8
def indefinite : Nat := 7

/-- One call of the encoder. The `...ToMapN` functions of QCBOR are an integer
followed by the value. -/
inductive Call where
  | int (i : Int)
  | uint (n : Nat)
  | bytes (b : Bytes)
  | text (b : Bytes)
  | bool (b : Bool)
  | raw (b : Bytes)
  | openArr | closeArr | openMap | closeMap
  | openArrI | closeArrI | openMapI | closeMapI
  deriving Repr, DecidableEq

/-- The encoder function behind a call. -/
def Call.run (e : Enc) : Call → Enc
  | .int i => e.addInt i
  | .uint n => e.addUInt n
  | .bytes b => e.addBytes (.data b)
  | .text b => e.addText b
  | .bool b => e.addBool b
  | .raw b => e.addEncoded (.data b)
  | .openArr => e.openArray
  | .closeArr => e.closeArray
  | .openMap => e.openMap
  | .closeMap => e.closeMap
  | .openArrI => e.openArrayIndef
  | .closeArrI => e.closeArrayIndef
  | .openMapI => e.openMapIndef
  | .closeMapI => e.closeMapIndef

/-- A sequence of calls. -/
def runCalls (e : Enc) (cs : List Call) : Enc := cs.foldl Call.run e

/-- Calls made only when a bit of the options is set. -/
def on (opts bit : Nat) (cs : List Call) : List Call := if hasFlag opts bit then cs else []

/-- Calls that depend on `T_COSE_TEST_INDEFINITE_MAPS_ARRAYS`. -/
def indef (opts : Nat) (i d : Call) : Call := if hasFlag opts indefinite then i else d

/-- "hh", "h", "hhh", "hi", "bye", "kid", "iv", "partial_iv", "xxxx", "xxxxxx" as octets. -/
def sHH : Bytes := [0x68, 0x68]
def sH : Bytes := [0x68]
def sHHH : Bytes := [0x68, 0x68, 0x68]
def sHi : Bytes := [0x68, 0x69]
def sBye : Bytes := [0x62, 0x79, 0x65]
def sKid : Bytes := [0x6b, 0x69, 0x64]
def sIv : Bytes := [0x69, 0x76]
def sPartialIv : Bytes := [0x70, 0x61, 0x72, 0x74, 0x69, 0x61, 0x6c, 0x5f, 0x69, 0x76]
def sX4 : Bytes := [0x78, 0x78, 0x78, 0x78]
def sX6 : Bytes := [0x78, 0x78, 0x78, 0x78, 0x78, 0x78]

/-- The calls of `encode_protected_parameters` between `QCBOREncode_Init` and
`QCBOREncode_Finish` (test/t_cose_make_test_messages.c:149-256). -/
def protCalls (opts : Nat) (alg : Int) : List Call :=
  if hasFlag opts badProtected then [.openArr, .int 42, .closeArr]
  else
    [indef opts .openMapI .openMap, .int 1, .int alg]
    ++ on opts unknownCritUint
        ([.int 42, .int 43, .int 2, indef opts .openArrI .openArr, .int 42, .int 43, .int 44,
          indef opts .closeArrI .closeArr])
    ++ on opts unknownCritTstr
        [.text sHH, .int 43, .int 2, .openArr, .text sHH, .text sH, .text sHHH, .closeArr]
    ++ on opts badCritLabel [.int 2, .openArr, .bool true, .closeArr]
    ++ on opts critExist
        ([.int 2, .openArr] ++ (List.range 10).map (fun i => .int (Int.ofNat i + 10)) ++ [.closeArr])
    ++ on opts tooManyCritExist
        ([.int 2, .openArr] ++ (List.range 11).map (fun i => .int (Int.ofNat i + 10)) ++ [.closeArr])
    ++ on opts tooManyTstrCrit
        ([.int 2, .openArr] ++ List.replicate 11 (.text []) ++ [.closeArr])
    ++ on opts emptyCrit [.int 2, .openArr, .closeArr]
    ++ on opts kidInProtected [.int 4, .bytes sKid]
    ++ on opts dupContentId [.int 3, .uint 3]
    ++ [indef opts .closeMapI .closeMap]

/-- `encode_protected_parameters` (test/t_cose_make_test_messages.c:122-268) into
the static buffer of 40 octets (line 419); a NULL buffer if they do not fit. The
buffer is modelled as starting zeroed; only octets written are returned. -/
def encodeProtected (opts : Nat) (alg : Int) : UB :=
  if hasFlag opts emptyProtected then .data []
  else if hasFlag opts unclosedProtected then .data [0xa1]
  else
    match (runCalls (Enc.init (.buf (List.replicate 40 0))) (protCalls opts alg)).finish with
    | .ok r => r
    | .error _ => .nil

/-- `add_unprotected_parameters` (test/t_cose_make_test_messages.c:284-409). -/
def unprotCalls (opts : Nat) (kid : Bytes) : List Call :=
  if hasFlag opts unprotectedNotMap then [.openArr, .bytes kid, .closeArr]
  else
    [indef opts .openMapI .openMap]
    ++ on opts notWellFormed1 [.raw sX6]
    ++ on opts parameterLabel [.bytes kid, .bytes kid]
    ++ on opts badCritParameter [.int 2, .text sHi]
    ++ on opts extraParameter
        [.int 55, .openArr, .openMap, .int 66, .text sHi, .closeMap, .closeArr]
    ++ on opts notWellFormed2
        [.int 55, .openArr, .openMap, .int 66, .text sHi, .raw [0xff], .int 67, .text sBye,
         .closeMap, .closeArr]
    ++ on opts critNotProtected
        ([.int 2, .openArr]
          ++ (List.range 10).flatMap (fun i => [.int (Int.ofNat i + 100), .text sX4]) ++ [.closeArr])
    ++ on opts tooManyUnknown
        ((List.range 11).flatMap fun i => [.int (Int.ofNat i + 10), .bool true])
    ++ (if kid.isEmpty then [] else [.int 4, .bytes kid])
    ++ on opts allParameters
        [.int 5, .bytes sIv, .int 6, .bytes sPartialIv, .int 3, .int 1,
         .int 55, .openArr, .openMap, .int 66, .text sHi, .int 67, .text sBye, .closeMap,
         .openArr, .openMap, .closeMap, .closeArr, .closeArr]
    ++ on opts tooLargeContentType [.int 3, .int 65536]
    ++ on opts dupContentId [.int 3, .uint 3]
    ++ [indef opts .closeMapI .closeMap]

/-- `short_circuit_sign` of the test code (test/t_cose_make_test_messages.c:51-97):
unlike the library's function of the same name it does test the size. -/
def scSign (alg : Int) (hash : Bytes) (room : Nat) : Except Err Bytes :=
  let n := if alg = algES256 then 64 else if alg = algES384 then 96
    else if alg = algES512 then 132 else 0
  if n = 0 then .error .unsupportedSigningAlg
  else if n > room then .error .sigBufferSize
  else
    match scLoop hash n n 0 (List.replicate n 0) with
    | some b => .ok (b.take n)
    | none => .error .modelHang

/-- `t_cose_sign1_test_message_encode_parameters`
(test/t_cose_make_test_messages.c:425-493). `prot0` is what
`me->protected_parameters` denotes on entry; what it denotes afterwards is
returned (here it points to the static buffer, not into the output). -/
def encodeParameters (cfg : Config) (me : SignCtx) (prot0 : UB) (opts : Nat) (e : Enc) :
    Except Err UB × Enc :=
  if hashAlgOfSigAlg cfg me.alg = algNone then (.error .unsupportedSigningAlg, e)
  else
    let e := if hasFlag me.flags optOmitTag then e else e.addTag 18
    let e := if hasFlag opts indefinite then e.openArrayIndef else e.openArray
    let prot := if hasFlag opts noProtected then prot0 else encodeProtected opts me.alg
    let e := if hasFlag opts noProtected then e else e.addBytes prot
    if hasFlag me.flags optShortCircuit ∧ cfg.disableShortCircuit then
      (.error .shortCircuitSigDisabled, e)
    else
      let kid := if hasFlag me.flags optShortCircuit then shortCircuitKid else me.kid.bytes
      let e := if hasFlag opts noUnprotected then e else runCalls e (unprotCalls opts kid)
      (.ok prot, e.bstrWrap)

/-- The signature (test/t_cose_make_test_messages.c:574-588) into `room` octets. -/
def signature (cfg : Config) (C : Crypto) (me : SignCtx) (hash : Bytes) (room : Nat) :
    Except Err Bytes :=
  if ¬ hasFlag me.flags optShortCircuit then C.sign me.alg me.key hash room
  else if cfg.disableShortCircuit then .error .shortCircuitSigDisabled
  else scSign me.alg hash room

/-- Room of the place handed out by `QCBOREncode_OpenBytes`. -/
def roomOf : Place → Nat
  | .null => 0
  | .room n => n

/-- `t_cose_sign1_test_message_output_signature`
(test/t_cose_make_test_messages.c:500-609). -/
def outputSignature (cfg : Config) (C : Crypto) (me : SignCtx) (prot : UB) (opts : Nat) (e : Enc) :
    Except Err Unit × Enc :=
  let payload := e.closeBstrWrap2.1.deref e.closeBstrWrap2.2
  let e := e.closeBstrWrap2.1
  match e.errState with
  | .tooSmall => (.error .tooSmall, e)
  | .other _ => (.error .cborFormatting, e)
  | .ok =>
    match createTbsHash cfg C me.alg prot .nil payload (maxHashSize cfg) with
    | .error x => (.error x, e)
    | .ok hash =>
      let place := e.openBytes.2
      let e := e.openBytes.1
      match signature cfg C me hash (roomOf place) with
      | .error x => (.error x, e)
      | .ok s =>
        let e := (e.writePlace s).closeBytes s.length
        (.ok (), if hasFlag opts indefinite then e.closeArrayIndef else e.closeArray)

/-- `t_cose_test_message_sign1_sign` (test/t_cose_make_test_messages.c:615-657)
into the buffer `m`. -/
def sign (cfg : Config) (C : Crypto) (me : SignCtx) (prot0 : UB) (opts : Nat) (payload : UB)
    (m : Bytes) : Except Err UB × Enc :=
  match encodeParameters cfg me prot0 opts (Enc.init (.buf m)) with
  | (.error x, e) => (.error x, e)
  | (.ok prot, e) =>
    match outputSignature cfg C me prot opts (e.addEncoded payload) with
    | (.error x, e) => (.error x, e)
    | (.ok (), e) =>
      match e.finish with
      | .ok r => (.ok r, e)
      | .error _ => (.error .cborNotWellFormed, e)

end TCose.TestMsg
