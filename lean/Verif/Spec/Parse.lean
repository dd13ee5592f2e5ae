import Verif.Spec.AnyItem

/-!
# Specification: a program that reads items

`Spec.Read` says by rules what is read as an item, and `Spec.AnyItem` what a verifier makes
of one.  The same as a program: `readItem` reads one item from the front of some octets.
That the program follows the rules is proved in `Lemmas.Parse`.

Nothing here refers to the decoder model or to t_cose.
-/

namespace TCose.Spec
open TCose

/-- The head of an item: major type, additional information, argument (for additional
information from 28 on, that again), and the octets behind it. -/
structure Hd where
  major : Nat
  ai : Nat
  arg : Nat
  rest : Bytes

/-- The number in some octets, network byte order. -/
def octetsNum (b : Bytes) : Nat := b.foldl (fun a x => a * 256 + x.toNat) 0

/-- The head at the front. -/
def headAt : Bytes → Option Hd
  | [] => none
  | b :: r =>
    if b.toNat % 32 < 24 ∨ 28 ≤ b.toNat % 32 then
      some ⟨b.toNat / 32, b.toNat % 32, b.toNat % 32, r⟩
    else if r.length < 2 ^ (b.toNat % 32 - 24) then none
    else some ⟨b.toNat / 32, b.toNat % 32, octetsNum (r.take (2 ^ (b.toNat % 32 - 24))),
      r.drop (2 ^ (b.toNat % 32 - 24))⟩

/-- The head is one of those that begin no CBOR item, but are passed (`NotCbor`). -/
def Hd.notCbor (h : Hd) : Bool :=
  (28 ≤ h.ai && h.ai ≤ 30) || (h.ai == 31 && (h.major == 0 || h.major == 1 || h.major == 6)) ||
    (h.major == 7 && h.ai == 24 && h.arg < 32)

/-- As many octets as the head says. -/
def Hd.string (h : Hd) : Option (Bytes × Bytes) :=
  if h.ai = 31 ∨ h.rest.length < h.arg then none else some (h.rest.take h.arg, h.rest.drop h.arg)

/-- `n` things, one after the other. -/
def times {α : Type} (p : Bytes → Option (α × Bytes)) : Nat → Bytes → Option (List α × Bytes)
  | 0, b => some ([], b)
  | n + 1, b =>
    match p b with
    | none => none
    | some (x, r) =>
      match times p n r with
      | none => none
      | some (xs, r) => some (x :: xs, r)

/-- Things up to a break. -/
def toBreak {α : Type} (p : Bytes → Option (α × Bytes)) : Nat → Bytes → Option (List α × Bytes)
  | 0, _ => none
  | f + 1, b =>
    if b.head? = some 0xff then some ([], b.tail)
    else
      match p b with
      | none => none
      | some (x, r) =>
        match toBreak p f r with
        | none => none
        | some (xs, r) => some (x :: xs, r)

/-- Passes tags; how many they were, and what is behind them. -/
def tagsAt : Nat → Bytes → Nat × Bytes
  | 0, b => (0, b)
  | f + 1, b =>
    match headAt b with
    | none => (0, b)
    | some h =>
      if h.major = 6 ∧ h.ai < 28 then ((tagsAt f h.rest).1 + 1, (tagsAt f h.rest).2) else (0, b)

/-- What is behind a `Piece`. -/
def Hd.piece (h : Hd) : Option Bytes :=
  if h.major = 2 ∨ h.major = 3 then h.string.map (·.2)
  else if h.major = 4 then (if h.ai = 31 ∨ h.arg ≤ 65534 then some h.rest else none)
  else if h.major = 5 then (if h.ai = 31 ∨ h.arg ≤ 32767 then some h.rest else none)
  else if h.major = 6 then none
  else some h.rest

/-- What is behind a `LoneKey`, if there is one at the front. -/
def loneAt (t f : Nat) (b : Bytes) : Option Bytes :=
  match headAt (tagsAt f b).2 with
  | none => none
  | some h =>
    if h.notCbor then some h.rest
    else if h.major = 1 ∧ 9223372036854775807 < h.arg then some h.rest
    else if t < (tagsAt f b).1 then h.piece
    else none

/-- Whether the item may be a map label (`IsKey`). -/
def isKey (t : Nat) (k : Item) : Bool :=
  k.tagList.length ≤ t && k.bare.isLabel && !k.bare.tooLow

/-- An entry of a map, with `p` to read items. -/
def entryAt (t f : Nat) (p : Bytes → Option (Item × Bytes)) (b : Bytes) :
    Option ((Item × Item) × Bytes) :=
  match loneAt t f b with
  | some r => some ((notItem, notItem), r)
  | none =>
    match p b with
    | none => none
    | some (k, r) =>
      if isKey t k then
        match p r with
        | none => none
        | some (v, r) => some ((k, v), r)
      else none

/-- The item at the front, with `d` levels of containers to spare. -/
def parse (t : Nat) : Nat → Nat → Bytes → Option (Item × Bytes)
  | 0, _, _ => none
  | f + 1, d, b =>
    match headAt b with
    | none => none
    | some h =>
      if h.notCbor then some (notItem, h.rest)
      else if h.major = 0 then some (.uint h.arg, h.rest)
      else if h.major = 1 then some (.nint h.arg, h.rest)
      else if h.major = 2 then h.string.map fun s => (.bstr s.1, s.2)
      else if h.major = 3 then h.string.map fun s => (.tstr s.1, s.2)
      else if h.major = 4 then
        if h.arg = 0 then some (.arr [], h.rest)
        else
          match d with
          | 0 => none
          | d + 1 =>
            (if h.ai = 31 then toBreak (parse t f d) (f + 1) h.rest
             else if h.arg ≤ 65534 then times (parse t f d) h.arg h.rest
             else none).map fun s => (.arr s.1, s.2)
      else if h.major = 5 then
        if h.arg = 0 then some (.map [], h.rest)
        else
          match d with
          | 0 => none
          | d + 1 =>
            (if h.ai = 31 then toBreak (entryAt t f (parse t f d)) (f + 1) h.rest
             else if h.arg ≤ 32767 then times (entryAt t f (parse t f d)) h.arg h.rest
             else none).map fun s => (.map s.1, s.2)
      else if h.major = 6 then (parse t f d h.rest).map fun s => (.tag h.arg s.1, s.2)
      else if h.ai = 31 then none
      else if h.ai ≤ 24 then some (if h.arg = 22 then .null else .simple h.arg, h.rest)
      else some (.float ((b.drop 1).take (2 ^ (h.ai - 24))), h.rest)

/-- The item at the front of some octets, and what is behind it. -/
def readItem (t d : Nat) (b : Bytes) : Option (Item × Bytes) := parse t b.length d b

/-- The header in the octets of the first element. -/
def protectedAt (P : QParams) (pb : Bytes) : Option (Except Err Header) :=
  if pb = [] then some (.ok []) else (readItem P.maxTags 13 pb).map fun y => y.1.header? P

end TCose.Spec
