import Verif.Spec.View

/-!
# Specification: the header parameters of a message laid open

Which value each COSE header parameter has (RFC 8152 section 3.1), read off the
entries of the two header maps.
-/

namespace TCose.Spec
open TCose

/-- The value of the parameter with integer label `i` in a header. -/
def param (i : Int) (es : List Entry) : Option Val :=
  (es.find? (fun e => decide (e.label = some (.int i)))).map (·.itm.val)

/-- The header has a parameter with integer label `i`. -/
def Has (i : Int) (es : List Entry) : Prop := ∃ e ∈ es, e.label = some (.int i)

def Val.asBstr : Val → Option Str
  | .bstr s => some s
  | _ => none

def Val.asInt : Val → Option Int
  | .int i => some i
  | _ => none

/-- All parameters, protected ones first. -/
def MsgView.entries (v : MsgView) : List Entry := v.protEntries ++ v.unprotEntries

/-- The algorithm id, from the protected header only. -/
def MsgView.alg (v : MsgView) : Option Int := (param 1 v.protEntries).bind Val.asInt

/-- The key id, from either header. -/
def MsgView.kid (v : MsgView) : Option Str := (param 4 v.entries).bind Val.asBstr

/-- The initialisation vector, from either header. -/
def MsgView.iv (v : MsgView) : Option Str := (param 5 v.entries).bind Val.asBstr

/-- The partial initialisation vector, from either header. -/
def MsgView.partialIv (v : MsgView) : Option Str := (param 6 v.entries).bind Val.asBstr

/-- `int` as a 32-bit two's complement number. -/
def Int32Of (i a : Int) : Prop := -2147483648 ≤ a ∧ a ≤ 2147483647 ∧ (i - a) % 4294967296 = 0

/-- The integer labels in a header, in order. -/
def intLabels (es : List Entry) : List Int :=
  es.filterMap fun e => match e.label with | some (.int i) => some i | _ => none

/-- The text labels in a header, in order. -/
def textLabels (es : List Entry) : List Bytes :=
  es.filterMap fun e => match e.label with | some (.tstr s) => some s.bytes | _ => none

/-- The labels processed by t_cose: alg, crit, content type, kid, iv, partial
iv. -/
def knownLabels : List Int := [1, 2, 3, 4, 5, 6]

/-- `s` is a contiguous part of `msg`, at the offset it says. -/
def Slice (msg : Bytes) (s : Str) : Prop :=
  ∃ pre post, msg = pre ++ s.bytes ++ post ∧ pre.length = s.off

/-- The elements of the crit list of the protected header (RFC 8152 section
3.1). -/
def IsCritList (P : QParams) (v : MsgView) (ces : List Entry) : Prop :=
  ∃ e ∈ v.protEntries, e.label = some (.int 2) ∧
    ∃ k cEnd, e.itm.val = .arr k ∧ elements P false 11 k e.cur = .ok (ces, cEnd)

/-- The integers in an array, in order. -/
def ints (ces : List Entry) : List Int := ces.filterMap fun e => Val.asInt e.itm.val

/-- The text strings in an array, in order. -/
def texts (ces : List Entry) : List Bytes :=
  ces.filterMap fun e => match e.itm.val with | .tstr s => some s.bytes | _ => none

end TCose.Spec
