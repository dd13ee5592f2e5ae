import Verif.TCose.Sign
import Verif.Spec.Cbor

/-!
# The two-step signing API as a caller uses it

inc/t_cose/t_cose_sign1_sign.h:392-475 documents the calling sequence:
`QCBOREncode_Init`, `t_cose_sign1_encode_parameters`, any QCBOR encoder calls that
produce the payload, `t_cose_sign1_encode_signature`, `QCBOREncode_Finish`.
-/

namespace TCose

/-- What a caller may write between the two calls: a balanced sequence of
encoder calls, as a tree. `raw` is `QCBOREncode_AddEncoded`. The entries of a
map are labels and values alternating. -/
inductive Content where
  | int (i : Int)
  | uint (n : Nat)
  | bytes (b : Bytes)
  | text (b : Bytes)
  | raw (b : Bytes)
  | null
  | bool (b : Bool)
  | tagged (t : Nat) (c : Content)
  | arr (cs : List Content)
  | map (cs : List Content)
  | wrap (cs : List Content)

mutual
/-- The encoder calls. -/
def Content.run : Content → Enc → Enc
  | .int i, e => e.addInt i
  | .uint n, e => e.addUInt n
  | .bytes b, e => e.addBytes (.data b)
  | .text b, e => e.addText b
  | .raw b, e => e.addEncoded (.data b)
  | .null, e => e.addNull
  | .bool b, e => e.addBool b
  | .tagged t c, e => c.run (e.addTag t)
  | .arr cs, e => (runAll cs e.openArray).closeArray
  | .map cs, e => (runAll cs e.openMap).closeMap
  | .wrap cs, e => (runAll cs e.bstrWrap).closeBstrWrap2.1
def runAll : List Content → Enc → Enc
  | [], e => e
  | c :: cs, e => runAll cs (c.run e)
end

mutual
/-- The octets the calls stand for (RFC 8949, shortest form). -/
def Content.enc : Content → Bytes
  | .int i => (Spec.int i).enc
  | .uint n => Spec.head 0 n
  | .bytes b => Spec.head 2 b.length ++ b
  | .text b => Spec.head 3 b.length ++ b
  | .raw b => b
  | .null => [0xf6]
  | .bool b => [if b then 0xf5 else 0xf4]
  | .tagged t c => Spec.head 6 t ++ c.enc
  | .arr cs => Spec.head 4 cs.length ++ encAll cs
  | .map cs => Spec.head 5 (cs.length / 2) ++ encAll cs
  | .wrap cs => Spec.head 2 (encAll cs).length ++ encAll cs
def encAll : List Content → Bytes
  | [] => []
  | c :: cs => c.enc ++ encAll cs
end

mutual
/-- Within QCBOR's limits: at most 65534 items per level, at most `d` levels. -/
def Content.fits : Content → Nat → Bool
  | .tagged _ c, d => c.fits d
  | .arr cs, d | .map cs, d | .wrap cs, d =>
    match d with
    | 0 => false
    | d + 1 => decide (cs.length ≤ 65534) && fitsAll cs d
  | _, _ => true
def fitsAll : List Content → Nat → Bool
  | [], _ => true
  | c :: cs, d => c.fits d && fitsAll cs d
end

/-- `QCBOREncode_GetErrorState` and `QCBOREncode_Finish` by the caller, errors
classified as src/t_cose_sign1_sign.c:593-607 does. -/
def callerFinish (e : Enc) : Except Err UB :=
  match e.errState with
  | .tooSmall => .error .tooSmall
  | .other _ => .error .cborFormatting
  | .ok =>
    match e.finish with
    | .ok r => .ok r
    | .error _ => .error .cborNotWellFormed

/-- The documented calling sequence with an inline payload; the caller treats
encoder errors like the one-call function does. -/
def twoStepSign (cfg : Config) (C : Crypto) (me : SignCtx) (aad : UB) (cs : List Content)
    (out : Mem) : Except Err UB :=
  match sign1EncodeParameters cfg me (Enc.init out) with
  | (.error x, _, _) => .error x
  | (.ok (), me, e) =>
    match sign1EncodeSignatureAad cfg C me aad (runAll cs e) with
    | (.error x, _, _) => .error x
    | (.ok (), _, e) => callerFinish e

end TCose
