import Verif.TCose.ShortCircuit
import Verif.TCose.Parameters

/-!
# src/t_cose_sign1_verify.c and the inline functions of
inc/t_cose/t_cose_sign1_verify.h
-/

namespace TCose

/-- Bits of the verification options (t_cose_sign1_verify.h:121-188). -/
def optAllowShortCircuit : Nat := 0
def optRequireKid : Nat := 1
def optTagRequired : Nat := 2
def optDecodeOnly : Nat := 3
def optTagProhibited : Nat := 4
def optUnknownCritAllowed : Nat := 5

/-- `CBOR_TAG_INVALID64`. -/
def tagInvalid : Nat := 18446744073709551615

/-- `T_COSE_MAX_TAGS_TO_RETURN` (t_cose_sign1_verify.h:197). -/
def maxTagsToReturn : Nat := 4

/-- `struct t_cose_sign1_verify_ctx` (t_cose_sign1_verify.h:205-225). `auTags`
is the array of four. The content of the auxiliary buffer after a call is not
tracked (it is scratch space). -/
structure VerifyCtx where
  key : Key
  flags : Nat
  auTags : List Nat
  aux : Mem
  auxSize : Nat
  deriving Repr, DecidableEq

/-- `t_cose_sign1_verify_init` (t_cose_sign1_verify.h:493-506). -/
def VerifyCtx.init (flags : Nat) : VerifyCtx :=
  { key := Key.null, flags := flags, auTags := List.replicate maxTagsToReturn 0,
    aux := .null 18446744073709551615, auxSize := 0 }

/-- `t_cose_sign1_set_verification_key` (t_cose_sign1_verify.h:509-514). -/
def VerifyCtx.setKey (me : VerifyCtx) (k : Key) : VerifyCtx := { me with key := k }

/-- `t_cose_sign1_verify_set_auxiliary_buffer` (t_cose_sign1_verify.h:516-526). -/
def VerifyCtx.setAux (cfg : Config) (me : VerifyCtx) (m : Mem) : VerifyCtx :=
  if cfg.disableEDDSA then me else { me with aux := m }

/-- `t_cose_sign1_verify_auxiliary_buffer_size` (t_cose_sign1_verify.h:528-538). -/
def VerifyCtx.auxiliaryBufferSize (cfg : Config) (me : VerifyCtx) : Nat :=
  if cfg.disableEDDSA then 0 else me.auxSize

/-- `t_cose_sign1_get_nth_tag` (t_cose_sign1_verify.h:541-549); `none` is a read
past the array. -/
def VerifyCtx.getNthTag (me : VerifyCtx) (n : Nat) : Option Nat :=
  if n > maxTagsToReturn then some tagInvalid else me.auTags[n]?

/-- The loop of `process_tags` (src/t_cose_sign1_verify.c:105-117) over the
remaining tags of the item, `QCBORDecode_GetNthTagOfLast(1)`, `(2)`, ...; `fuel`
counts the tags QCBOR can return. The last component is the ghost
undefined-behaviour flag (write past `auTags`). -/
def tagLoop (P : QParams) (d : Dec) : Nat → Nat → Nat → List Nat →
    Except Err Unit × List Nat × Bool
  | 0, _, _, tags => (.error .modelHang, tags, false)
  | fuel + 1, i, r, tags =>
    let t := d.nthTag P i
    if t = tagInvalid then (.ok (), tags, false)
    else if r > maxTagsToReturn then (.error .tooManyTags, tags, false)
    else if r < tags.length then tagLoop P d fuel (i + 1) (r + 1) (tags.set r t)
    else
      match tagLoop P d fuel (i + 1) (r + 1) tags with
      | (x, tags, _) => (x, tags, true)

/-- `process_tags` (src/t_cose_sign1_verify.c:51-120). -/
def processTags (P : QParams) (me : VerifyCtx) (d : Dec) : Except Err Unit × VerifyCtx × Bool :=
  let t := d.nthTag P 0
  if hasFlag me.flags optTagRequired ∧ t ≠ 18 then (.error .incorrectlyTagged, me, false)
  else if hasFlag me.flags optTagProhibited ∧ t = 18 then (.error .incorrectlyTagged, me, false)
  else
    let tags := List.replicate maxTagsToReturn tagInvalid
    let (r, tags) := if t ≠ 18 then (1, tags.set 0 t) else (0, tags)
    match tagLoop P d (P.maxTags + 1) 1 r tags with
    | (x, tags, ub) => (x, { me with auTags := tags }, ub)

/-- `qcbor_decode_error_to_t_cose_error` (src/t_cose_sign1_verify.c:131-144)
(`modelHang` for the decoder model's own fuel error). -/
def decodeErr : Option QErr → Except Err Unit
  | none => .ok ()
  | some e =>
    if e = .fuel then .error .modelHang
    else if e = .tooManyTags then .error .tooManyTags
    else if e.notWellFormed then .error .cborNotWellFormed
    else .error .sign1Format

/-- A `q_useful_buf_c` in the verifier: a slice of the message, or something
else (what the caller passed in, or an uninitialised variable). -/
inductive Buf where
  | slice (s : Str)
  | ext (b : UB)
  deriving Repr, DecidableEq

def Buf.ub : Buf → UB
  | .slice s => .data s.bytes
  | .ext b => b

/-- `sign1_verify_short_circuit` (src/t_cose_sign1_verify.c:168-205). -/
def verifyShortCircuit (cfg : Config) (C : Crypto) (me : VerifyCtx) (p : Params)
    (sig prot aad payload : UB) : Except Err Unit :=
  if hasFlag me.flags optDecodeOnly then .ok ()
  else if !hasFlag me.flags optAllowShortCircuit then .error .shortCircuitSig
  else
    match createTbsHash cfg C p.alg prot aad payload (maxHashSize cfg) with
    | .error x => .error x
    | .ok hash => scVerify hash sig.bytes

/-- `sign1_verify_eddsa` (src/t_cose_sign1_verify.c:233-287). Returns the
result, the updated context (`auxiliary_buffer_size`) and the ghost
undefined-behaviour flag of `create_tbs`. -/
def verifyEddsa (C : Crypto) (me : VerifyCtx) (p : Params) (sig prot aad payload : UB) :
    Except Err Unit × VerifyCtx × Bool :=
  match createTbs prot aad payload me.aux with
  | (.error .tooSmall, ub) => (.error .auxiliaryBufferSize, me, ub)
  | (.error x, ub) => (.error x, me, ub)
  | (.ok tbs, ub) =>
    let me := { me with auxSize := tbs.len }
    if hasFlag me.flags optDecodeOnly then (.ok (), me, ub)
    else if me.aux.isNull then (.error .needAuxiliaryBuffer, me, ub)
    else (C.verifyEddsa me.key (p.kid.map (·.bytes)) tbs.bytes sig.bytes, me, ub)

/-- `sign1_verify_default` (src/t_cose_sign1_verify.c:311-348). -/
def verifyDefault (cfg : Config) (C : Crypto) (me : VerifyCtx) (p : Params)
    (sig prot aad payload : UB) : Except Err Unit :=
  if hasFlag me.flags optDecodeOnly then .ok ()
  else
    match createTbsHash cfg C p.alg prot aad payload (maxHashSize cfg) with
    | .error x => .error x
    | .ok hash => C.verify p.alg me.key (p.kid.map (·.bytes)) hash sig.bytes

/-- How the payload is passed (`payload`, `is_dc`): inline, with or without a
place to return it, or detached. -/
inductive VPayload where
  | inline (want : Bool)
  | detached (p : UB)
  deriving Repr, DecidableEq

/-- Values of the uninitialised local variables `protected_parameters`,
`signed_payload` and `signature` (src/t_cose_sign1_verify.c:377-384). -/
structure Junk where
  prot : UB
  payload : UB
  sig : UB
  deriving Repr, DecidableEq

/-- What decoding yields (the local variables at src/t_cose_sign1_verify.c:461). -/
structure Decoded where
  params : Params
  crit : LabelList
  unk : LabelList
  prot : Buf
  payload : Buf
  sig : Buf
  deriving Repr, DecidableEq

/-- `protected_parameters` after `QCBORDecode_EnterBstrWrapped`
(src/t_cose_sign1_verify.c:408): untouched, NULL, or the string. -/
def wrapOut (junk : UB) : Option (Option Str) → Buf
  | none => .ext junk
  | some none => .ext .nil
  | some (some s) => .slice s

/-- A string stored by `QCBORDecode_GetByteString`, or the variable untouched. -/
def strOut (junk : UB) : Option Str → Buf
  | none => .ext junk
  | some s => .slice s

/-- src/t_cose_sign1_verify.c:409-418: parse the protected parameters unless
empty. -/
def parseProtected (cfg : Config) (P : QParams) (prot : Buf) (st : Parse) :
    Except Err Unit × Parse :=
  if prot.ub.len ≠ 0 then parseHeader cfg P true st else (.ok (), st)

/-- src/t_cose_sign1_verify.c:430-443: the payload, in the message or
detached. -/
def takePayload (P : QParams) (d : Dec) (pay : VPayload) (junk : UB) : Except Err (Dec × Buf) :=
  match pay with
  | .detached p =>
    match d.getNext P with
    | (.ok it, d1) => if it.val = .null then .ok (d1, .ext p) else .error .cborFormatting
    | (.error _, _) => .error .cborFormatting
  | .inline _ => .ok ((d.getByteString P).1, strOut junk (d.getByteString P).2)

/-- The decoding of header buckets, payload and signature,
src/t_cose_sign1_verify.c:407-459, after `process_tags`. The `Parse` is what
the local variables hold when an error ends the decoding (for the ghost
flags). -/
def decodeBody (cfg : Config) (P : QParams) (d : Dec) (pay : VPayload) (junk : Junk) :
    Except Err Decoded × Parse :=
  let (d, out) := d.enterBstrWrapped P
  let prot := wrapOut junk.prot out
  match parseProtected cfg P prot { d := d, params := Params.clear, crit := LabelList.clear,
                                    unk := LabelList.clear } with
  | (.error x, st) => (.error x, st)
  | (.ok (), st) =>
    match parseHeader cfg P false { st with d := st.d.exitBstrWrapped } with
    | (.error x, st) => (.error x, st)
    | (.ok (), st) =>
      match takePayload P st.d pay junk.payload with
      | .error x => (.error x, st)
      | .ok (d, payload) =>
        let (d, sigOut) := d.getByteString P
        match decodeErr (d.exitArray P).finish with
        | .error x => (.error x, st)
        | .ok () =>
          (.ok { params := st.params, crit := st.crit, unk := st.unk, prot := prot,
                 payload := payload, sig := strOut junk.sig sigOut }, st)

/-- What happens after decoding, src/t_cose_sign1_verify.c:463-493. -/
def checkDecoded (cfg : Config) (C : Crypto) (me : VerifyCtx) (aad : UB) (x : Decoded) :
    Except Err Unit × VerifyCtx × Bool :=
  if hasFlag me.flags optRequireKid && x.params.kid.isNone then (.error .noKid, me, false)
  else
    let (cr, ub) : Except Err Unit × Bool :=
      if hasFlag me.flags optUnknownCritAllowed then (.ok (), false)
      else checkCritical x.crit x.unk
    match cr with
    | .error e => (.error e, me, ub)
    | .ok () =>
      if !cfg.disableShortCircuit && (Str.ub x.params.kid).bytes == shortCircuitKid then
        (verifyShortCircuit cfg C me x.params x.sig.ub x.prot.ub aad x.payload.ub, me, ub)
      else if !cfg.disableEDDSA && x.params.alg == algEDDSA then
        match verifyEddsa C me x.params x.sig.ub x.prot.ub aad x.payload.ub with
        | (r, me, ub') => (r, me, ub || ub')
      else
        (verifyDefault cfg C me x.params x.sig.ub x.prot.ub aad x.payload.ub, me, ub)

/-- Everything a verification call leaves behind: return code, context, what was
stored to `*returned_parameters` and `*payload` (`none`: nothing stored), and
the ghost undefined-behaviour flag. -/
structure VRes where
  res : Except Err Unit
  ctx : VerifyCtx
  params : Option Params
  payload : Option Buf
  ub : Bool
  deriving DecidableEq

/-- A call that fails stores nothing. -/
def VRes.fail (x : Err) (me : VerifyCtx) (ub : Bool) : VRes := ⟨.error x, me, none, none, ub⟩

/-- `t_cose_sign1_verify_internal` (src/t_cose_sign1_verify.c:354-506);
`wantParams` is `returned_parameters != NULL`. -/
def verifyInternal (cfg : Config) (P : QParams) (C : Crypto) (junk : Junk) (me : VerifyCtx)
    (msg : Bytes) (aad : UB) (pay : VPayload) (wantParams : Bool) : VRes :=
  let d := (Dec.init msg).enterArray P
  match decodeErr d.err with
  | .error x => .fail x me false
  | .ok () =>
    match processTags P me d with
    | (.error x, me, ub) => .fail x me ub
    | (.ok (), me, ub) =>
      match decodeBody cfg P d pay junk with
      | (.error x, st) => .fail x me (ub || st.crit.ub || st.unk.ub)
      | (.ok dec, _) =>
        match checkDecoded cfg C me aad dec with
        | (.error x, me, ub') => .fail x me (ub || dec.crit.ub || dec.unk.ub || ub')
        | (.ok (), me, ub') =>
          { res := .ok (), ctx := me,
            params := if wantParams then some dec.params else none,
            payload := if pay = .inline true then some dec.payload else none,
            ub := ub || dec.crit.ub || dec.unk.ub || ub' }

/-- `t_cose_sign1_verify` (t_cose_sign1_verify.h:579-591). -/
def sign1Verify (cfg : Config) (P : QParams) (C : Crypto) (junk : Junk) (me : VerifyCtx)
    (msg : Bytes) (wantPayload wantParams : Bool) : VRes :=
  verifyInternal cfg P C junk me msg .nil (.inline wantPayload) wantParams

/-- `t_cose_sign1_verify_aad` (t_cose_sign1_verify.h:594-607). -/
def sign1VerifyAad (cfg : Config) (P : QParams) (C : Crypto) (junk : Junk) (me : VerifyCtx)
    (msg : Bytes) (aad : UB) (wantPayload wantParams : Bool) : VRes :=
  verifyInternal cfg P C junk me msg aad (.inline wantPayload) wantParams

/-- `t_cose_sign1_verify_detached` (t_cose_sign1_verify.h:610-623). -/
def sign1VerifyDetached (cfg : Config) (P : QParams) (C : Crypto) (junk : Junk)
    (me : VerifyCtx) (msg : Bytes) (aad payload : UB) (wantParams : Bool) : VRes :=
  verifyInternal cfg P C junk me msg aad (.detached payload) wantParams

end TCose
