import Verif.Spec.Untag

/-!
# Specification: what a verifier makes of any CBOR item

`Spec.Verdict` and `Spec.Untag` say what becomes of COSE_Sign1 messages.  Here is
what becomes of any CBOR item at all that is passed for one: an item that is no
array, an array with elements missing, of the wrong type, with tags or in excess, and
headers with labels that no COSE header has.  Also covered is what QCBOR takes for an item
although it is none (`Spec.Read`).
-/

namespace TCose.Spec
open TCose

/-- The label of a map entry as a header label.  A byte string is none, and is as bad as
an integer beyond `int64_t`. -/
def labelOf : Item → Label
  | .uint n => .int n
  | .nint n => .int (-1 - (n : Int))
  | .tstr t => .text t
  | _ => .int 9223372036854775808

/-- The header that an item is, if it is a map, in spite of tags, also those on labels; or the
error code if it is none. -/
def Item.header? (P : QParams) (x : Item) : Except Err Header :=
  match x.untag P with
  | .map kvs => .ok (kvs.map fun p => (labelOf p.1.bare, p.2))
  | _ => if x.bare.isNot then .error .cborNotWellFormed else .error .parameterCbor

/-- The byte string with the protected header has the octets `pb`, and `h` is the header in
it: nothing, or some item that is a map, or some other item (an error).  Octets
behind that item do not matter.  There are 13 levels left for it. -/
def ProtectedIn (P : QParams) (pb : Bytes) (h : Except Err Header) : Prop :=
  (pb = [] ∧ h = .ok []) ∨
  ∃ y b r, pb = b ++ r ∧ Reads P.maxTags 13 y b ∧ h = y.header? P

/-- The error code for an item that is not what is expected: no CBOR, too many tags, or of some
other type. -/
def typeFault (P : QParams) (x : Item) : Err :=
  if x.bare.isNot then .cborNotWellFormed
  else if x.bare.tooLow = false ∧ P.maxTags < x.tagList.length then .tooManyTags
  else .sign1Format

/-- The octets of an element that has to be a byte string without tags, or the error code if
it is not. -/
def stringAt (P : QParams) : Option Item → Except Err Bytes
  | some (.bstr b) => .ok b
  | some x => .error (typeFault P x)
  | none => .error .sign1Format

/-- The octets of the payload: of an element like the one before or, if detached, of the
caller, and the element is null, in spite of tags. -/
def payloadAt (P : QParams) (detached : Option Bytes) (x : Option Item) : Except Err Bytes :=
  match detached with
  | none => stringAt P x
  | some p =>
    match x.map (Item.untag P) with
    | some .null => .ok p
    | _ => .error .cborFormatting

/-- What is in an array. -/
structure Found4 where
  known : Known
  prot : Bytes
  payload : Bytes
  sig : Bytes

/-- The elements of an array, in order: `h` is the header in the first, and `more` if
something follows the array. -/
def readArray (P : QParams) (noCt : Bool) (detached : Option Bytes) (xs : List Item)
    (h : Except Err Header) (more : Bool) : Except Err Found4 :=
  match (xs[0]? : Option Item), h with
  | some (.bstr _), .error e => .error e
  | some (.bstr pb), .ok h =>
    match readHeader noCt true (Header.untag P h) Known.nothing with
    | .error e => .error e
    | .ok k =>
      match (xs[1]?.map (Item.header? P)).getD (.error .parameterCbor) with
      | .error e => .error e
      | .ok u =>
        match readHeader noCt false (Header.untag P u) k with
        | .error e => .error e
        | .ok k =>
          match payloadAt P detached xs[2]? with
          | .error e => .error e
          | .ok p =>
            match stringAt P xs[3]? with
            | .error e => .error e
            | .ok s => if more then .error .cborNotWellFormed else .ok ⟨k, pb, p, s⟩
  | some x, _ => if x.bare.isNot then .error .cborNotWellFormed else .error .parameterCbor
  | none, _ => .error .parameterCbor

/-- The elements of the array that an item is, in spite of tags; if it is none, the error
code. -/
def arrayOf (P : QParams) (x : Item) : Except Err (List Item) :=
  match x.untag P with
  | .arr xs => .ok xs
  | _ => .error (typeFault P x)

end TCose.Spec
