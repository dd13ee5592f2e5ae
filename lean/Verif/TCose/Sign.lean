import Verif.TCose.ShortCircuit

/-!
# src/t_cose_sign1_sign.c and the inline functions of inc/t_cose/t_cose_sign1_sign.h
-/

namespace TCose
open Enc (PRef Place)

/-- `struct t_cose_sign1_sign_ctx` (inc/t_cose/t_cose_sign1_sign.h:69-95).
`contentTypeTstr = none` is a NULL string pointer. The content of the
auxiliary buffer after a call is not tracked (it is scratch space). -/
structure SignCtx where
  alg : Int
  key : Key
  flags : Nat
  kid : UB
  contentTypeUint : Nat
  contentTypeTstr : Option Bytes
  protectedParams : PRef
  aux : Mem
  auxSize : Nat
  deriving Repr

/-- Bit of `T_COSE_OPT_SHORT_CIRCUIT_SIG` = 0x1 (t_cose_sign1_sign.h:120). -/
def optShortCircuit : Nat := 0
/-- Bit of `T_COSE_OPT_OMIT_CBOR_TAG` = 0x2 (t_cose_sign1_sign.h:133). -/
def optOmitTag : Nat := 1

/-- `SIZE_MAX` on a 64-bit platform. -/
def sizeMax : Nat := 18446744073709551615

/-- `t_cose_sign1_sign_init` (t_cose_sign1_sign.h:484-503). -/
def SignCtx.init (flags : Nat) (alg : Int) : SignCtx :=
  { alg := alg, key := Key.null, flags := flags, kid := .nil,
    contentTypeUint := emptyContentType, contentTypeTstr := none,
    protectedParams := .null 0, aux := .null sizeMax, auxSize := 0 }

/-- `t_cose_sign1_set_signing_key` (t_cose_sign1_sign.h:506-513). -/
def SignCtx.setKey (me : SignCtx) (key : Key) (kid : UB) : SignCtx :=
  { me with key := key, kid := kid }

/-- `t_cose_sign1_sign_set_auxiliary_buffer` (t_cose_sign1_sign.h:515-525). -/
def SignCtx.setAux (cfg : Config) (me : SignCtx) (m : Mem) : SignCtx :=
  if cfg.disableEDDSA then me else { me with aux := m }

/-- `t_cose_sign1_sign_auxiliary_buffer_size` (t_cose_sign1_sign.h:527-537). -/
def SignCtx.auxiliaryBufferSize (cfg : Config) (me : SignCtx) : Nat :=
  if cfg.disableEDDSA then 0 else me.auxSize

/-- `t_cose_sign1_set_content_type_uint` (t_cose_sign1_sign.h:698-703); the
parameter is a `uint16_t`. -/
def SignCtx.setContentTypeUint (me : SignCtx) (t : Nat) : SignCtx :=
  { me with contentTypeUint := t % 65536 }

/-- `t_cose_sign1_set_content_type_tstr` (t_cose_sign1_sign.h:706-711). -/
def SignCtx.setContentTypeTstr (me : SignCtx) (t : Option Bytes) : SignCtx :=
  { me with contentTypeTstr := t }

/-- `encode_protected_parameters` (src/t_cose_sign1_sign.c:83-104). -/
def encodeProtected (alg : Int) (e : Enc) : Enc × PRef :=
  (((((e.bstrWrap).openMap).addInt 1).addInt alg).closeMap).closeBstrWrap2

/-- `add_unprotected_parameters` (src/t_cose_sign1_sign.c:122-167). -/
def addUnprotected (cfg : Config) (me : SignCtx) (kid : UB) (e : Enc) :
    Except Err Unit × Enc :=
  let e := e.openMap
  let e := if kid.isNullOrEmpty then e else (e.addInt 4).addBytes kid
  if cfg.disableContentType then (.ok (), e.closeMap)
  else if me.contentTypeUint ≠ emptyContentType ∧ me.contentTypeTstr ≠ none then
    (.error .duplicateParameter, e)
  else
    let e := if me.contentTypeUint ≠ emptyContentType then
        (e.addInt 3).addUInt me.contentTypeUint else e
    let e := match me.contentTypeTstr with
      | some t => (e.addInt 3).addText t
      | none => e
    (.ok (), e.closeMap)

/-- `t_cose_sign1_encode_parameters_internal`
(src/t_cose_sign1_sign.c:173-230). -/
def encodeParametersInternal (cfg : Config) (me : SignCtx) (detached : Bool) (e : Enc) :
    Except Err Unit × SignCtx × Enc :=
  if ¬ sigAlgSupported cfg me.alg then (.error .unsupportedSigningAlg, me, e)
  else
    let e := if hasFlag me.flags optOmitTag then e else e.addTag 18
    let e := e.openArray
    let (e, pp) := encodeProtected me.alg e
    let me := { me with protectedParams := pp }
    if hasFlag me.flags optShortCircuit ∧ cfg.disableShortCircuit then
      (.error .shortCircuitSigDisabled, me, e)
    else
      let kid := if hasFlag me.flags optShortCircuit ∧ me.kid.isNullOrEmpty then
          UB.data shortCircuitKid else me.kid
      match addUnprotected cfg me kid e with
      | (.error x, e) => (.error x, me, e)
      | (.ok (), e) => (.ok (), me, if detached then e else e.bstrWrap)

/-- What a signing procedure produced: a size only (`null n`, NULL pointer) or
octets that were written to the place in the output buffer. -/
abbrev SigOut := UB

/-- `sign1_sign_short_circuit` (src/t_cose_sign1_sign.c:250-292). `prot` is
what `me->protected_parameters` refers to at the time of the call. -/
def signShortCircuit (cfg : Config) (C : Crypto) (me : SignCtx) (prot aad payload : UB)
    (place : Place) : Except Err SigOut :=
  match createTbsHash cfg C me.alg prot aad payload (maxHashSize cfg) with
  | .error x => .error x
  | .ok hash =>
    match place with
    | .null => (scSigSize me.alg).map UB.null
    | .room n => (scSign me.alg hash n).map UB.data

/-- `sign1_sign_eddsa` (src/t_cose_sign1_sign.c:318-373). Returns the result,
the updated context (`auxiliary_buffer_size`) and the ghost
undefined-behaviour flag of `create_tbs`. -/
def signEddsa (C : Crypto) (me : SignCtx) (prot aad payload : UB) (place : Place) :
    Except Err SigOut × SignCtx × Bool :=
  match createTbs prot aad payload me.aux with
  | (.error .tooSmall, ub) => (.error .auxiliaryBufferSize, me, ub)
  | (.error x, ub) => (.error x, me, ub)
  | (.ok tbs, ub) =>
    let me := { me with auxSize := tbs.len }
    match place with
    | .null => ((C.sigSize me.alg me.key).map UB.null, me, ub)
    | .room n =>
      if me.aux.isNull then (.error .needAuxiliaryBuffer, me, ub)
      else ((C.signEddsa me.key tbs.bytes n).map UB.data, me, ub)

/-- `sign1_sign_default` (src/t_cose_sign1_sign.c:399-443). -/
def signDefault (cfg : Config) (C : Crypto) (me : SignCtx) (prot aad payload : UB)
    (place : Place) : Except Err SigOut :=
  match createTbsHash cfg C me.alg prot aad payload (maxHashSize cfg) with
  | .error x => .error x
  | .ok hash =>
    match place with
    | .null => (C.sigSize me.alg me.key).map UB.null
    | .room n => (C.sign me.alg me.key hash n).map UB.data

/-- The choice of procedure in `t_cose_sign1_encode_signature_aad_internal`
(src/t_cose_sign1_sign.c:492-516). -/
def signDispatch (cfg : Config) (C : Crypto) (me : SignCtx) (prot aad payload : UB)
    (place : Place) : Except Err SigOut × SignCtx × Bool :=
  if !cfg.disableShortCircuit && hasFlag me.flags optShortCircuit then
    (signShortCircuit cfg C me prot aad payload place, me, false)
  else if !cfg.disableEDDSA && me.alg == algEDDSA then
    signEddsa C me prot aad payload place
  else
    (signDefault cfg C me prot aad payload place, me, false)

/-- The payload that gets signed and the encoder after closing the payload
wrapping (src/t_cose_sign1_sign.c:462-466). -/
def closePayload (detachedPayload : UB) (e : Enc) : Enc × UB :=
  if detachedPayload.isNull then
    (e.closeBstrWrap2.1, e.closeBstrWrap2.1.deref e.closeBstrWrap2.2)
  else (e, detachedPayload)

/-- `t_cose_sign1_encode_signature_aad_internal`
(src/t_cose_sign1_sign.c:448-532). -/
def encodeSignatureInternal (cfg : Config) (C : Crypto) (me : SignCtx)
    (aad detachedPayload : UB) (e : Enc) : Except Err Unit × SignCtx × Enc :=
  let (e, payload) := closePayload detachedPayload e
  match e.errState with
  | .tooSmall => (.error .tooSmall, me, e)
  | .other _ => (.error .cborFormatting, me, e)
  | .ok =>
    let (e, place) := e.openBytes
    match signDispatch cfg C me (e.deref me.protectedParams) aad payload place with
    | (.error x, me, ub) => (.error x, me, { e with ub := e.ub || ub })
    | (.ok sig, me, ub) =>
      let e := { e with ub := e.ub || ub }
      let e := match sig with
        | .data s => e.writePlace s
        | .null _ => e
      (.ok (), me, (e.closeBytes sig.len).closeArray)

/-- `t_cose_sign1_sign_aad_internal` (src/t_cose_sign1_sign.c:538-613). The
final encoder is returned for its memory and ghost flag. -/
def signAadInternal (cfg : Config) (C : Crypto) (me : SignCtx) (detached : Bool)
    (payload aad : UB) (out : Mem) : Except Err UB × SignCtx × Enc :=
  match encodeParametersInternal cfg me detached (Enc.init out) with
  | (.error x, me, e) => (.error x, me, e)
  | (.ok (), me, e) =>
    let e := if detached then e.addNull else e.addEncoded payload
    let payload := if detached then payload else .nil
    match encodeSignatureInternal cfg C me aad payload e with
    | (.error x, me, e) => (.error x, me, e)
    | (.ok (), me, e) =>
      match e.errState with
      | .tooSmall => (.error .tooSmall, me, e)
      | .other _ => (.error .cborFormatting, me, e)
      | .ok =>
        match e.finish with
        | .ok r => (.ok r, me, e)
        | .error _ => (.error .cborNotWellFormed, me, e)

/-! ## Public functions (inc/t_cose/t_cose_sign1_sign.h) -/

/-- `t_cose_sign1_sign_aad` (t_cose_sign1_sign.h:627-640). The inline function
passes its arguments in the order `aad, payload`, which is the order of the
*declaration* of the internal function (t_cose_sign1_sign.h:618-624), while the
*definition* takes `payload, aad`. -/
def sign1SignAad (cfg : Config) (C : Crypto) (me : SignCtx) (aad payload : UB)
    (out : Mem) : Except Err UB × SignCtx × Enc :=
  signAadInternal cfg C me false aad payload out

/-- `t_cose_sign1_sign` (t_cose_sign1_sign.h:643-655). -/
def sign1Sign (cfg : Config) (C : Crypto) (me : SignCtx) (payload : UB)
    (out : Mem) : Except Err UB × SignCtx × Enc :=
  signAadInternal cfg C me false payload .nil out

/-- `t_cose_sign1_sign_detached` (t_cose_sign1_sign.h:658-671). -/
def sign1SignDetached (cfg : Config) (C : Crypto) (me : SignCtx)
    (aad payload : UB) (out : Mem) : Except Err UB × SignCtx × Enc :=
  signAadInternal cfg C me true payload aad out

/-- `t_cose_sign1_encode_parameters` (t_cose_sign1_sign.h:561-568). -/
def sign1EncodeParameters (cfg : Config) (me : SignCtx) (e : Enc) :
    Except Err Unit × SignCtx × Enc :=
  encodeParametersInternal cfg me false e

/-- `t_cose_sign1_encode_signature_aad` (t_cose_sign1_sign.h:674-683). -/
def sign1EncodeSignatureAad (cfg : Config) (C : Crypto) (me : SignCtx) (aad : UB)
    (e : Enc) : Except Err Unit × SignCtx × Enc :=
  encodeSignatureInternal cfg C me aad .nil e

/-- `t_cose_sign1_encode_signature` (t_cose_sign1_sign.h:686-694). -/
def sign1EncodeSignature (cfg : Config) (C : Crypto) (me : SignCtx) (e : Enc) :
    Except Err Unit × SignCtx × Enc :=
  encodeSignatureInternal cfg C me .nil .nil e

end TCose
