import Verif.TCose.TwoStep

/-!
# The signing context between the two steps

`t_cose_sign1_encode_parameters` leaves in the context a pointer to the protected
parameters, `me->protected_parameters`, into the buffer of the encoder it was called
with.  `t_cose_sign1_encode_signature` reads through it.  In between the caller may use
the context for other things: change settings, or sign or size another message in
another buffer, which moves the pointer there.  `Verif/TCose/Sign.lean` reads the pointer
in the memory of the encoder that is written to; here what is seen through it is a
parameter.
-/

namespace TCose

/-- `t_cose_sign1_encode_signature_aad_internal` (src/t_cose_sign1_sign.c:448-532), when
`me->protected_parameters` need not point into the buffer of this encoder: `prot e` is what is
seen through it when the encoder is `e`. -/
def encodeSignatureSeeing (cfg : Config) (C : Crypto) (me : SignCtx) (prot : Enc → UB)
    (aad detachedPayload : UB) (e : Enc) : Except Err Unit × SignCtx × Enc :=
  let (e, payload) := closePayload detachedPayload e
  match e.errState with
  | .tooSmall => (.error .tooSmall, me, e)
  | .other _ => (.error .cborFormatting, me, e)
  | .ok =>
    let (e, place) := e.openBytes
    match signDispatch cfg C me (prot e) aad payload place with
    | (.error x, me, ub) => (.error x, me, { e with ub := e.ub || ub })
    | (.ok sig, me, ub) =>
      let e := { e with ub := e.ub || ub }
      let e := match sig with
        | .data s => e.writePlace s
        | .null _ => e
      (.ok (), me, (e.closeBytes sig.len).closeArray)

/-- A call on the signing context between the two steps: settings, a new initialisation, or one of
the functions that make a message in one call (`t_cose_sign1_sign`, `t_cose_sign1_sign_aad` and
`t_cose_sign1_sign_detached`, which are `t_cose_sign1_sign_aad_internal`), in another buffer, or the
first step of another message (`t_cose_sign1_encode_parameters`) in another buffer. -/
inductive MidCall where
  | init (flags : Nat) (alg : Int)
  | setKey (key : Key) (kid : UB)
  | setAux (m : Mem)
  | setContentTypeUint (t : Nat)
  | setContentTypeTstr (t : Option Bytes)
  | sign (det : Bool) (payload aad : UB) (out : Mem)
  | start (out : Mem)

/-- The context, and what is seen through `me->protected_parameters`. -/
structure Midway where
  ctx : SignCtx
  prot : Enc → UB

/-- The effect of a call (inc/t_cose/t_cose_sign1_sign.h:484-525, 618-711 and
src/t_cose_sign1_sign.c:173-230, 538-613).  `t_cose_sign1_sign_init` clears the context;
`t_cose_sign1_encode_parameters_internal` sets the pointer, to memory that is supposed to
stay as the call left it, unless it refuses the algorithm first. -/
def MidCall.run (cfg : Config) (C : Crypto) (s : Midway) : MidCall → Midway
  | .init flags alg => ⟨SignCtx.init flags alg, fun _ => .nil⟩
  | .setKey k kid => ⟨s.ctx.setKey k kid, s.prot⟩
  | .setAux m => ⟨s.ctx.setAux cfg m, s.prot⟩
  | .setContentTypeUint t => ⟨s.ctx.setContentTypeUint t, s.prot⟩
  | .setContentTypeTstr t => ⟨s.ctx.setContentTypeTstr t, s.prot⟩
  | .sign det payload aad out =>
    match signAadInternal cfg C s.ctx det payload aad out with
    | (_, me, e) =>
      ⟨me, if sigAlgSupported cfg s.ctx.alg then fun _ => e.deref me.protectedParams else s.prot⟩
  | .start out =>
    match sign1EncodeParameters cfg s.ctx (Enc.init out) with
    | (_, me, e) =>
      ⟨me, if sigAlgSupported cfg s.ctx.alg then fun _ => e.deref me.protectedParams else s.prot⟩

/-- Some calls. -/
def midRun (cfg : Config) (C : Crypto) (s : Midway) (mid : List MidCall) : Midway :=
  mid.foldl (MidCall.run cfg C) s

/-- Two-step signing as in `twoStepSign` (the documented sequence,
inc/t_cose/t_cose_sign1_sign.h:392-475), with the calls `mid` on the context between the steps. -/
def aroundSign (cfg : Config) (C : Crypto) (me : SignCtx) (aad : UB) (cs : List Content)
    (mid : List MidCall) (out : Mem) : Except Err UB :=
  match sign1EncodeParameters cfg me (Enc.init out) with
  | (.error x, _, _) => .error x
  | (.ok (), me, e) =>
    match encodeSignatureSeeing cfg C
        (midRun cfg C ⟨me, fun e => e.deref me.protectedParams⟩ mid).ctx
        (midRun cfg C ⟨me, fun e => e.deref me.protectedParams⟩ mid).prot aad .nil (runAll cs e) with
    | (.error x, _, _) => .error x
    | (.ok (), _, e) => callerFinish e

end TCose
