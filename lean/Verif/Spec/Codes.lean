import Verif.Spec.Header
import Verif.Spec.Cose
import Verif.Spec.Limits

/-!
# Specification: what the error codes about a message mean

The documentation of `enum t_cose_err_t` (inc/t_cose/t_cose_common.h:250-410),
code by code, for a message laid open.
-/

namespace TCose.Spec
open TCose

/-- A label that is neither an integer nor a text string. -/
def Entry.OddLabel (e : Entry) : Prop :=
  (∀ i, e.label ≠ some (.int i)) ∧ ∀ s, e.label ≠ some (.tstr s)

/-- One of the parameters whose values are used: alg, content type, kid, iv,
partial iv. -/
def Entry.Used (e : Entry) : Prop := ∃ i ∈ [(1 : Int), 3, 4, 5, 6], e.label = some (.int i)

/-- The algorithm is not an integer, or a kid, iv or partial iv is not a byte
string. -/
def Entry.WrongType (e : Entry) : Prop :=
  (e.label = some (.int 1) ∧ ∀ i, e.itm.val ≠ .int i) ∨
  ∃ i ∈ [(4 : Int), 5, 6], e.label = some (.int i) ∧ ∀ s, e.itm.val ≠ .bstr s

/-- Something is wrong with the format of a header. -/
def BadFormat (es : List Entry) : Prop :=
  (∃ e ∈ es, e.OddLabel ∨ e.WrongType ∨ (e.Used ∧ e.itm.err ≠ none)) ∨
  ∃ i ∈ [(1 : Int), 3, 4, 5, 6], 1 < (intLabels es).count i

/-- Something is wrong with a list of critical labels: an element that is neither an
integer nor a text string, more than ten of either, or no label at all (the
reserved label 0 and the empty text do not count as labels). -/
def BadCritList (ces : List Entry) : Prop :=
  (∃ c ∈ ces, (∀ i, c.itm.val ≠ .int i) ∧ ∀ s, c.itm.val ≠ .tstr s) ∨
  10 < (ints ces).length ∨ 10 < (texts ces).length ∨
  ((ints ces).headD 0 = 0 ∧ (texts ces).headD [] = [])

/-- Something is wrong with the crit parameter of a header: there are two, the value
cannot be read or it is not an array. -/
def BadCrit (es : List Entry) : Prop :=
  1 < (intLabels es).count 2 ∨
  ∃ e ∈ es, e.label = some (.int 2) ∧ (e.itm.err ≠ none ∨ ∀ k, e.itm.val ≠ .arr k)

/-- Integer labels of parameters that t_cose does not know. -/
def unknownInts (es : List Entry) : List Int := (intLabels es).filter (fun i => i ∉ knownLabels)

/-- The item was read with an error that says it is not well-formed. -/
def Entry.NotWellFormed (e : Entry) : Prop := ∃ x, e.itm.err = some x ∧ x.notWellFormed = true

/-- The item was read with an error. -/
def Entry.Unreadable (e : Entry) : Prop := e.itm.err ≠ none

/-- The codes that are about the message. -/
def messageCodes : List Err :=
  [.sign1Format, .cborNotWellFormed, .parameterCbor, .noKid, .shortCircuitSig, .cborFormatting,
   .tooManyParameters, .unknownCriticalParameter, .nonIntegerAlgId, .badContentType,
   .incorrectlyTagged, .duplicateParameter, .parameterNotProtected, .critParameter, .tooManyTags,
   .needAuxiliaryBuffer, .auxiliaryBufferSize]

/-- The adapter leaves the codes about the message to t_cose. -/
structure Quiet (C : Crypto) : Prop where
  start : ∀ a, ∀ y ∈ messageCodes, C.hashStart a ≠ .error y
  finish : ∀ h n, ∀ y ∈ messageCodes, C.hashFinish h n ≠ .error y
  verify : ∀ a k kid d s, ∀ y ∈ messageCodes, C.verify a k kid d s ≠ .error y
  verifyEddsa : ∀ k kid t s, ∀ y ∈ messageCodes, C.verifyEddsa k kid t s ≠ .error y

/-- What is said of the caller's side: the option flags, the payload if it is passed
apart from the message, the associated data, and the auxiliary buffer (whether there
is none, and its size). -/
structure Call where
  flags : Nat
  detached : Option Bytes
  aad : Bytes
  noAux : Bool
  auxSize : Nat

/-- The payload to be verified. -/
def Call.IsPayload (c : Call) (v : MsgView) (b : Bytes) : Prop :=
  match c.detached with
  | none => ∃ s, v.payload = .bstr s ∧ v.payloadTags = [] ∧ b = s.bytes
  | some p => v.payload = .null ∧ b = p

/-- The message is signed with the short-circuit kid. -/
def ShortCircuited (cfg : Config) (v : MsgView) : Prop :=
  cfg.disableShortCircuit = false ∧ v.kid.map (·.bytes) = some scKid

/-- The message is signed with EdDSA. -/
def WithEddsa (cfg : Config) (v : MsgView) : Prop :=
  cfg.disableEDDSA = false ∧ (∃ i, v.alg = some i ∧ Int32Of i (-8)) ∧ ¬ ShortCircuited cfg v

/-- What each code about the message says of it. -/
def Meaning (cfg : Config) (P : QParams) (c : Call) (v : MsgView) : Err → Prop
  | .duplicateParameter => ∃ i ∈ [(3 : Int), 4, 5, 6], Has i v.protEntries ∧ Has i v.unprotEntries
  | .parameterNotProtected => Has 1 v.unprotEntries ∨ Has 2 v.unprotEntries
  | .tooManyParameters =>
    10 < (unknownInts v.entries).length ∨ 10 < (textLabels v.entries).length
  | .nonIntegerAlgId => ∃ e ∈ v.protEntries, e.label = some (.int 1) ∧
      ∃ i, e.itm.val = .int i ∧ (i = 0 ∨ 2147483647 < i)
  | .badContentType => ∃ e ∈ v.entries, e.label = some (.int 3) ∧ (∀ s, e.itm.val ≠ .tstr s) ∧
      ∀ i, e.itm.val = .int i → i < 0 ∨ 65535 < i
  | .critParameter => BadCrit v.protEntries ∨ BadCrit v.unprotEntries ∨
      ∃ ces, IsCritList P v ces ∧ BadCritList ces
  | .unknownCriticalParameter => c.flags.testBit 5 = false ∧ ∃ ces, IsCritList P v ces ∧
      ((∃ i ∈ ints ces, i ∉ knownLabels ∧ Has i v.entries) ∨
        ∃ t ∈ texts ces, t ∈ textLabels v.entries)
  | .parameterCbor => BadFormat v.protEntries ∨ BadFormat v.unprotEntries
  | .cborNotWellFormed => (∃ e ∈ v.entries, e.NotWellFormed) ∨
      ∃ ces, IsCritList P v ces ∧ ∃ e ∈ ces, e.NotWellFormed
  | .sign1Format => c.detached = none ∧ ¬ ∃ s, v.payload = .bstr s ∧ v.payloadTags = []
  | .cborFormatting => c.detached ≠ none ∧ v.payload ≠ .null
  | .incorrectlyTagged => (c.flags.testBit 2 = true ∧ v.tags.head? ≠ some 18) ∨
      (c.flags.testBit 4 = true ∧ v.tags.head? = some 18)
  | .tooManyTags => False
  | .noKid => c.flags.testBit 1 = true ∧ v.kid = none
  | .shortCircuitSig => c.flags.testBit 0 = false ∧ c.flags.testBit 3 = false ∧
      ShortCircuited cfg v
  | .needAuxiliaryBuffer => WithEddsa cfg v ∧ c.flags.testBit 3 = false ∧ c.noAux = true
  | .auxiliaryBufferSize => WithEddsa cfg v ∧ ∃ b, c.IsPayload v b ∧
      c.auxSize < (sigStructure v.prot.bytes c.aad b).length
  | _ => True

end TCose.Spec
