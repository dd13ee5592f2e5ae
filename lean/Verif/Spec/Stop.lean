import Verif.Spec.Parse

/-!
# Specification: what becomes of octets that cannot be read

`Spec.Parse` reads items; what it cannot read has no result there.  Here is a program that
finds where the reading has to end, for which of two kinds of reasons, and what was read up
to there.  With it `readAll` gives what is in an array, or the error code, for all octets.

Nothing here refers to the decoder model or to t_cose.
-/

namespace TCose.Spec
open TCose

/-- Why octets are not read: they are no CBOR (a head or a string that is cut off, or a break
out of place), or they are more than the reader takes (a string of indefinite length, too many
elements announced, too many levels, an item as label that can be none); or there are none
where one more item should begin. -/
inductive Stop where
  | bad
  | limit
  deriving DecidableEq, Repr

/-- The error code, in a header. -/
def Stop.inHeader : Stop → Err
  | .bad => .cborNotWellFormed
  | .limit => .parameterCbor

/-- The error code, outside headers. -/
def Stop.outside : Stop → Err
  | .bad => .cborNotWellFormed
  | .limit => .sign1Format

/-- What is wrong with the head of an item, or with a string. -/
def Hd.stop (h : Hd) : Option Stop :=
  if h.notCbor then none
  else if h.major = 2 ∨ h.major = 3 then
    if h.ai = 31 then some .limit else if h.rest.length < h.arg then some .bad else none
  else if h.major = 4 then (if h.ai ≠ 31 ∧ 65534 < h.arg then some .limit else none)
  else if h.major = 5 then (if h.ai ≠ 31 ∧ 32767 < h.arg then some .limit else none)
  else none

/-- The tags at the front. -/
def tagNums : Nat → Bytes → List Nat
  | 0, _ => []
  | f + 1, b =>
    match headAt b with
    | none => []
    | some h => if h.major = 6 ∧ h.ai < 28 then h.arg :: tagNums f h.rest else []

/-- What is wrong with the head behind the tags. -/
def headStop (f : Nat) (b : Bytes) : Option Stop :=
  match headAt (tagsAt f b).2 with
  | none => some .bad
  | some h => h.stop

/-- The same, where there may be no break. -/
def itemStop (f : Nat) (b : Bytes) : Option Stop :=
  match headAt (tagsAt f b).2 with
  | none => some .bad
  | some h => if h.major = 7 ∧ h.ai = 31 then some .bad else h.stop

/-- Things as long as they can be read, and what is behind them. -/
def front {α : Type} (p : Bytes → Option (α × Bytes)) : Nat → Bytes → List α × Bytes
  | 0, b => ([], b)
  | f + 1, b =>
    match p b with
    | none => ([], b)
    | some (x, r) => (x :: (front p f r).1, (front p f r).2)

/-- Why something is not read, if there are octets. -/
def stopOr (q : Bytes → Stop) (b : Bytes) : Stop := if b = [] then .limit else q b

/-- Why the entry of a map is not read, with `q` for its value. -/
def stopEntry (f : Nat) (q : Bytes → Stop) (b : Bytes) : Stop :=
  match headAt (tagsAt f b).2 with
  | none => .bad
  | some h =>
    match h.stop with
    | some s => s
    | none =>
      if h.major = 7 ∧ h.ai = 31 then .bad
      else
        match h.piece with
        | none => .bad
        | some r => if h.major ≤ 3 then q r else (headStop f r).getD .limit

/-- Why the item at the front is not read, with `d` levels of containers to spare. -/
def stopItem (t : Nat) : Nat → Nat → Bytes → Stop
  | 0, _, _ => .bad
  | f + 1, d, b =>
    match headAt b with
    | none => .bad
    | some h =>
      match h.stop with
      | some s => s
      | none =>
        if h.major = 4 then
          match d with
          | 0 => .limit
          | d + 1 => stopOr (stopItem t f d) (front (parse t f d) (f + 1) h.rest).2
        else if h.major = 5 then
          match d with
          | 0 => .limit
          | d + 1 => stopOr (stopEntry f (stopItem t f d))
              (front (entryAt t f (parse t f d)) (f + 1) h.rest).2
        else if h.major = 6 then stopItem t f d h.rest
        else .bad

/-- What is behind the head of the container at the front. -/
def contentAt (f : Nat) (b : Bytes) : Bytes :=
  match headAt (tagsAt f b).2 with
  | none => []
  | some h => h.rest

/-- The container at the front with its tags, but without its content. -/
def emptyAt (f : Nat) (b : Bytes) : Item :=
  match headAt (tagsAt f b).2 with
  | none => notItem
  | some h => tagged (tagNums f b) (if h.major = 4 then .arr [] else .map [])

/-- The last entry of a map that is not read to its end: if its value is a container, the container
without its content; else nothing. -/
def lastEntry (t f d : Nat) (b : Bytes) : List (Item × Item) :=
  match parse t f d b with
  | none => []
  | some (k, r) => if isKey t k ∧ itemStop f r = none then [(k, emptyAt f r)] else []

/-- A header: not there, read, or read in part. -/
inductive Hdr where
  | no (e : Err)
  | whole (h : Header)
  | cut (h : Header) (s : Stop)

/-- The entries of a map as parameters. -/
def asHeader (kvs : List (Item × Item)) : Header := kvs.map fun p => (labelOf p.1.bare, p.2)

/-- A header that is read. -/
def Hdr.of : Except Err Header → Hdr
  | .error e => .no e
  | .ok h => .whole h

/-- The header at the front of some octets. -/
def headerIn (P : QParams) (d : Nat) (b : Bytes) : Hdr :=
  match readItem P.maxTags d b with
  | some (x, _) => .of (x.header? P)
  | none =>
    match itemStop b.length b with
    | some s => .no s.inHeader
    | none =>
      match (emptyAt b.length b).header? P with
      | .error e => .no e
      | .ok _ =>
        let q := front (entryAt P.maxTags b.length (parse P.maxTags b.length (d - 1))) (b.length + 1)
          (contentAt b.length b)
        .cut (asHeader (q.1 ++ lastEntry P.maxTags b.length (d - 1) q.2))
          (stopOr (stopEntry b.length (stopItem P.maxTags b.length (d - 1))) q.2)

/-- What is known after a header.  Of a header that is read in part only the faults are of
interest. -/
def Hdr.read (P : QParams) (noCt prot : Bool) (k : Known) : Hdr → Except Err Known
  | .no e => .error e
  | .whole h => readHeader noCt prot (Header.untag P h) k
  | .cut h s =>
    match scan (Header.untag P h) [] ⟨k.ints, k.texts⟩ with
    | .error e => .error e
    | .ok _ => .error s.inHeader

/-- What is at the front of octets that are not read: a fault, or the head of a container. -/
inductive Fault where
  | stop (s : Stop)
  | open_ (x : Item)

/-- What is at the front of octets that are not read. -/
def faultAt (b : Bytes) : Fault :=
  if b = [] then .stop .limit
  else
    match itemStop b.length b with
    | some s => .stop s
    | none => .open_ (emptyAt b.length b)

/-- The error code where a byte string was expected. -/
def Fault.string (P : QParams) : Fault → Err
  | .stop s => s.outside
  | .open_ x => typeFault P x

/-- The error code where the protected header was expected. -/
def Fault.header : Fault → Err
  | .stop s => s.inHeader
  | .open_ _ => .parameterCbor

/-- The elements of an array, in order; `last` is what is at the front of the octets behind those
that can be read, and `fin` the error code of what is behind the signature, if any. -/
def readAll (P : QParams) (noCt : Bool) (detached : Option Bytes) (xs : List Item) (last : Bytes)
    (fin : Option Err) : Except Err Found4 :=
  match (xs[0]? : Option Item) with
  | none => .error (faultAt last).header
  | some (.bstr pb) =>
    match (if pb = [] then Hdr.whole [] else headerIn P 13 pb).read P noCt true Known.nothing with
    | .error e => .error e
    | .ok k =>
      match (match (xs[1]? : Option Item) with
        | some x => Hdr.of (x.header? P)
        | none => if last = [] then .no .parameterCbor else headerIn P 14 last).read P noCt false k with
      | .error e => .error e
      | .ok k =>
        match (match (xs[2]? : Option Item) with
          | some x => payloadAt P detached (some x)
          | none => .error (if detached = none then (faultAt last).string P else .cborFormatting)) with
        | .error e => .error e
        | .ok p =>
          match (match (xs[3]? : Option Item) with
            | some x => stringAt P (some x)
            | none => .error ((faultAt last).string P)) with
          | .error e => .error e
          | .ok s =>
            match fin with
            | some e => .error e
            | none => .ok ⟨k, pb, p, s⟩
  | some x => if x.bare.isNot then .error .cborNotWellFormed else .error .parameterCbor

/-- The message: its tags, outermost first, what can be read of the elements, where the reading ends, and the
error code of what is behind the signature, if any.  Or it is no array. -/
def messageAt (P : QParams) (msg : Bytes) :
    Except Err (List Nat × List Item × Bytes × Option Err) :=
  match readItem P.maxTags 15 msg with
  | some (x, r) =>
    match arrayOf P x with
    | .error e => .error e
    | .ok xs => .ok (x.tagList, xs, [], if r = [] then none else some .cborNotWellFormed)
  | none =>
    match faultAt msg with
    | .stop s => .error s.outside
    | .open_ x =>
      match arrayOf P x with
      | .error e => .error e
      | .ok _ =>
        let q := front (parse P.maxTags msg.length 14) (msg.length + 1) (contentAt msg.length msg)
        .ok (x.tagList, q.1, q.2, some (stopOr (stopItem P.maxTags msg.length 14) q.2).outside)

end TCose.Spec
