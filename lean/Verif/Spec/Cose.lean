import Verif.Spec.Options
import Verif.Spec.Cbor

/-!
# Specification: COSE_Sign1 messages (RFC 8152 sections 3.1, 4.2, 4.4)

Stated from the RFC only, on top of `Spec.Cbor`.
-/

namespace TCose.Spec

/-- `Sig_structure = ["Signature1", body_protected, external_aad, payload]`
(RFC 8152 section 4.4), encoded: the to-be-signed octets. -/
def sigStructure (bodyProtected aad payload : Bytes) : Bytes :=
  (Item.arr [.tstr (ascii "Signature1"), .bstr bodyProtected, .bstr aad, .bstr payload]).enc

/-- Hash function of a COSE signature algorithm (RFC 8152 table 5, RFC 8230
table 1; numbers as in the IANA registry: ES256 -7, ES384 -35, ES512 -36, PS256 -37,
PS384 -38, PS512 -39, SHA-256 -16, SHA-384 -43, SHA-512 -44; EdDSA signs the octets themselves). -/
def hashOf (alg : Int) : Option Int :=
  if alg = -7 ∨ alg = -37 then some (-16)
  else if alg = -35 ∨ alg = -38 then some (-43)
  else if alg = -36 ∨ alg = -39 then some (-44)
  else none

/-- The key id that marks a short-circuit signature, as documented in
src/t_cose_util.h:185-190. -/
def scKid : Bytes :=
  [0xef, 0x95, 0x4b, 0x4b, 0xd9, 0xbd, 0xf6, 0x70, 0xd0, 0x33, 0x60, 0x82, 0xf5, 0xef, 0x15, 0x2a,
   0xf8, 0xf3, 0x5b, 0x6a, 0x6c, 0x00, 0xef, 0xa6, 0xa9, 0xa7, 0x1f, 0x49, 0x51, 0x7e, 0x18, 0xc6]

/-- The protected header `{1: alg}` as encoded octets. -/
def protectedHeader (alg : Int) : Bytes := (Item.map [(.uint 1, int alg)]).enc

/-- Content type given by the signer: nothing, a CoAP number or a MIME string. -/
inductive ContentType where
  | none | num (n : Nat) | text (t : Bytes)

/-- The unprotected header: optional kid (label 4), optional content type
(label 3). -/
def unprotectedHeader (kid : Option Bytes) (ct : ContentType) : Item :=
  .map ((match kid with | some k => [(.uint 4, .bstr k)] | Option.none => [])
    ++ (match ct with
        | .none => []
        | .num n => [(.uint 3, .uint n)]
        | .text t => [(.uint 3, .tstr t)]))

/-- The COSE_Sign1 item: optionally tagged 18, four elements; the payload is a
byte string, or null when detached. -/
def coseSign1 (tagged : Bool) (alg : Int) (kid : Option Bytes) (ct : ContentType)
    (payload : Option Bytes) (sig : Bytes) : Item :=
  let body : Item := .arr
    [ .bstr (protectedHeader alg),
      unprotectedHeader kid ct,
      (match payload with | some p => .bstr p | Option.none => .null),
      .bstr sig ]
  if tagged then .tag 18 body else body

end TCose.Spec
