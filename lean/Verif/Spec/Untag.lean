import Verif.Spec.Verdict

/-!
# Specification: header parameters with tags on their values

RFC 8152 has no tags on header parameters, but nothing keeps a message from having them.
QCBOR collects up to `maxTags` tags with an item and refuses the item if there are more.
Some tags change the type of what they stand on, or are an error there (a date that is no
number); `tagProc` says which.  Arrays and maps stay what they are.

Here is what is left of a header when that is done.
-/

namespace TCose.Spec
open TCose

/-- The value a decoder has for an item that is neither tagged nor a container; a string
is thought to begin at 0. -/
def Item.val : Item → Val
  | .uint n => if n ≤ 9223372036854775807 then .int n else .uint n
  | .nint n => .int (-1 - (n : Int))
  | .bstr b => .bstr ⟨0, b⟩
  | .tstr b => .tstr ⟨0, b⟩
  | .null => .null
  | _ => .other

/-- What is left of an item when its tags have been taken into account; `unread` if they
are too many or wrong where they stand, and some item of no use if they change its type.  What is
no item or beyond the range stays so with tags. -/
def Item.untag (P : QParams) (x : Item) : Item :=
  if x.bare.isNot = true then notItem
  else if x.bare.tooLow = true then unread
  else if x.tagList = [] then x
  else if P.maxTags < x.tagList.length then unread
  else match x.bare with
    | .arr xs => .arr xs
    | .map kvs => .map kvs
    | y => match P.tagProc x.tagList.reverse y.val with
      | .keep => y
      | .retype => .simple 0
      | .fail => unread

/-- The same for a parameter: the item, and its elements if it is an array. -/
def Item.untagParam (P : QParams) (x : Item) : Item :=
  match x.untag P with
  | .arr xs => .arr (xs.map (Item.untag P))
  | y => y

/-- The same for a header. -/
def Header.untag (P : QParams) (h : Header) : Header := h.map fun p => (p.1, p.2.untagParam P)

/-- The same for a message. -/
def Message.untag (P : QParams) (m : Message) : Message :=
  { m with prot := Header.untag P m.prot, unprot := Header.untag P m.unprot }

/-- A parameter without any tags: the item, and its elements if it is an array. -/
def Item.bareParam (x : Item) : Item :=
  match x.bare with
  | .arr xs => .arr (xs.map Item.bare)
  | y => y

/-- A header without any tags on its parameters. -/
def Header.bare (h : Header) : Header := h.map fun p => (p.1, p.2.bareParam)

/-- No parameter has more than `t` tags, nor has an element of one. -/
def Header.fewTags (t : Nat) (h : Header) : Prop :=
  ∀ p ∈ h, p.2.tagList.length ≤ t ∧ ∀ xs, p.2.bare = .arr xs → ∀ y ∈ xs, y.tagList.length ≤ t

end TCose.Spec
