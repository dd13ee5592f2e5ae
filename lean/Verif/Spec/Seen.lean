import Verif.Spec.Read

/-!
# Specification: a COSE_Sign1 message as it is read

The items of which the verifier makes a message, and the values its header parameters
have, whatever tags stand around labels and values.

Nothing here refers to the decoder model or to t_cose.
-/

namespace TCose.Spec
open TCose

/-- The number an integer item stands for. -/
def Item.number : Item → Option Int
  | .uint n => some n
  | .nint n => some (-1 - (n : Int))
  | _ => none

/-- The text a text item stands for. -/
def Item.text : Item → Option Bytes
  | .tstr s => some s
  | _ => none

/-- The values of the parameters with integer label `i` in a header map, in order,
without tags. -/
def valuesOf (i : Int) (kvs : List (Item × Item)) : List Item :=
  kvs.filterMap fun kv => if kv.1.bare.number = some i then some kv.2.bare else none

/-- The items of a message: tags around it, outermost first; content of the
protected-header byte string; entries of the two header maps; payload with its tags;
signature; further elements of the array. -/
structure Seen where
  tags : List Nat
  pb : Bytes
  prot : List (Item × Item)
  unprot : List (Item × Item)
  payload : Item
  sig : Bytes
  extra : List Item

/-- `msg` is read as these items, by a decoder that keeps `t` tags with an item and has 15
levels, two of which are used where the protected header begins. The map in the protected
header may be followed by anything. -/
structure Seen.In (S : Seen) (t : Nat) (msg : Bytes) : Prop where
  whole : ∃ us, Reads t 15 (tagged S.tags (.arr (.bstr S.pb :: tagged us (.map S.unprot) ::
    S.payload :: .bstr S.sig :: S.extra))) msg
  prot : (S.pb = [] ∧ S.prot = []) ∨
    ∃ us b rest, S.pb = b ++ rest ∧ Reads t 13 (tagged us (.map S.prot)) b

/-- All header parameters. -/
def Seen.params (S : Seen) : List (Item × Item) := S.prot ++ S.unprot

end TCose.Spec
