import Verif.TCose.TwoStep
import Verif.TCose.Verify
import Verif.Spec.Cose
import Verif.Spec.Crypto

/-!
# What a sequence of API calls asks for

Specification of the two contexts as a user sees them: what was set last counts,
since the last initialisation.
-/

namespace TCose.Spec

/-- A call on a signing context (inc/t_cose/t_cose_sign1_sign.h:190-470). The two
halves of the two-step interface get any encoder state. -/
inductive SignCall where
  | init (flags : Nat) (alg : Int)
  | setKey (key : Key) (kid : UB)
  | setAux (m : Mem)
  | setContentTypeUint (t : Nat)
  | setContentTypeTstr (t : Option Bytes)
  | sign (payload : UB) (out : Mem)
  | signAad (aad payload : UB) (out : Mem)
  | signDetached (aad payload : UB) (out : Mem)
  | encodeParameters (e : Enc)
  | encodeSignature (e : Enc)
  | encodeSignatureAad (aad : UB) (e : Enc)

/-- A call on a verification context
(inc/t_cose/t_cose_sign1_verify.h:228-480). -/
inductive VerifyCall where
  | init (flags : Nat)
  | setKey (key : Key)
  | setAux (m : Mem)
  | verify (msg : Bytes) (wantPayload wantParams : Bool)
  | verifyAad (msg : Bytes) (aad : UB) (wantPayload wantParams : Bool)
  | verifyDetached (msg : Bytes) (aad payload : UB) (wantParams : Bool)

/-- The last call that says something about a setting decides; `d` if there is
none. -/
def lastOr {κ α : Type} (f : κ → Option α) (d : α) (calls : List κ) : α :=
  (calls.reverse.findSome? f).getD d

/-- What the calls after the initialisation ask for. -/
def keySet : SignCall → Option Key
  | .setKey k _ => some k
  | _ => none
def kidSet : SignCall → Option Bytes
  | .setKey _ kid => some kid.bytes
  | _ => none
/-- The number is a `uint16_t`. -/
def numSet : SignCall → Option (Option Nat)
  | .setContentTypeUint t => some (some (t % 65536))
  | _ => none
def textSet : SignCall → Option (Option Bytes)
  | .setContentTypeTstr t => some t
  | _ => none

/-- No initialisation among the calls. -/
def SignCall.isInit : SignCall → Bool
  | .init _ _ => true
  | _ => false
def VerifyCall.isInit : VerifyCall → Bool
  | .init _ => true
  | _ => false

/-- The kid in the message: the user's, or the short-circuit one if short-circuit
signing (bit 0 of the options) was asked for without a kid. -/
def kidFor (flags : Nat) (kid : Bytes) : Option Bytes :=
  if kid = [] then (if flags.testBit 0 then some scKid else none) else some kid

/-- The content type in the message. -/
def contentTypeFor (disabled : Bool) (num : Option Nat) (text : Option Bytes) : ContentType :=
  if disabled then .none
  else match text, num with
    | some t, _ => .text t
    | none, some n => .num n
    | none, none => .none

/-- Octets of an ECDSA signature (RFC 8152 section 8.1), which short-circuit
signatures imitate; nothing else has a size. -/
def scSize (alg : Int) : Nat :=
  if alg = -7 then 64 else if alg = -35 then 96 else if alg = -36 then 132 else 0

/-- A signature over `tbs` made with `key`: by repetition of the digest when
short-circuit signing was asked for, over the octets themselves for EdDSA (-8), over
the digest otherwise. `D` is the digest function of the adapter. -/
def SignedBy (C : Crypto) (D : Int → Bytes → Bytes) (flags : Nat) (alg : Int) (key : Key)
    (tbs sig : Bytes) : Prop :=
  if flags.testBit 0 then
    ∃ ha, hashOf alg = some ha ∧ sig.length = scSize alg ∧
      ∀ j, j < sig.length → sig[j]? = (D ha tbs)[j % (D ha tbs).length]?
  else if alg = -8 then ∃ n, C.signEddsa key tbs n = .ok sig
  else ∃ ha n, hashOf alg = some ha ∧ C.sign alg key (D ha tbs) n = .ok sig

end TCose.Spec
