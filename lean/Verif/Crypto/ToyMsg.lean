import Verif.Crypto.Toy
import Verif.Spec.Cose
import Verif.TCose.Verify

/-!
# Messages for non-vacuity examples and witnesses

Not a model of anything in /repo: COSE_Sign1 messages with chosen headers, with
a signature that `toyCrypto` accepts.
-/

namespace TCose
open Spec

/-- A message with the given headers, signed (ES256) by the toy adapter. -/
def toyMsg (tagged : Bool) (prot unprot : List (Item × Item)) (payload : Bytes) : Bytes :=
  let p := (Item.map prot).enc
  let body := Item.arr [.bstr p, .map unprot, .bstr payload,
    .bstr (toySig (toyDigest algSHA256 (sigStructure p [] payload)))]
  (if tagged then Item.tag 18 body else body).enc

/-- The same with a detached payload. -/
def toyMsgDetached (prot unprot : List (Item × Item)) (aad payload : Bytes) : Bytes :=
  let p := (Item.map prot).enc
  (Item.tag 18 (.arr [.bstr p, .map unprot, .null,
    .bstr (toySig (toyDigest algSHA256 (sigStructure p aad payload)))])).enc

/-- An EdDSA message. -/
def toyMsgEddsa (unprot : List (Item × Item)) (payload : Bytes) : Bytes :=
  let p := (Item.map [(.uint 1, .nint 7)]).enc
  (Item.tag 18 (.arr [.bstr p, .map unprot, .bstr payload,
    .bstr (toySig (sigStructure p [] payload))])).enc

/-- The protected header {1: -7}. -/
def es256Hdr : List (Item × Item) := [(.uint 1, .nint 6)]

/-- Uninitialised variables, for the examples. -/
def noJunk : Junk := ⟨.nil, .nil, .nil⟩

/-- Verification of a message by the toy adapter. -/
abbrev toyVerify (flags : Nat) (msg : Bytes) : VRes :=
  sign1Verify Config.full QParams.std toyCrypto noJunk (VerifyCtx.init flags) msg true true

end TCose
