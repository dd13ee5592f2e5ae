import Verif.TestCode.Examples

/-! # Specification: what the example programs should do -/

namespace TCose.Spec.Examples
open TCose ExampleCode

/-- The objects in use after `acts`, if there were `l` before. `none` if one was used or freed
that was not there, or made although there was one, or a variable was used that was not set. -/
def live : List Obj → List Act → Option (List Obj)
  | l, [] => some l
  | l, .got o :: r => if o ∈ l then none else live (o :: l) r
  | l, .used o :: r => if o ∈ l then live l r else none
  | l, .freed o :: r => if o ∈ l then live (l.erase o) r else none
  | _, .undef :: _ => none
  | l, _ :: r => live l r

/-- What making a key with OpenSSL leaves: the context if there was memory for it, and a key if the
steps before `EVP_PKEY_keygen` worked and that left one, whatever it returned. -/
def keyLeft (L : EvpGen) (ty : SignVerifyTest.EvpType) (curve : SignVerifyTest.KeyData) : List Obj :=
  if L.ctxNew ty = 0 then []
  else if 0 < L.init (L.ctxNew ty) ∧ (ty = .ec → L.curve (L.ctxNew ty) curve = 1) ∧
      (L.keygen (L.ctxNew ty) L.pkeyNew).2 ≠ 0 then [.key, .keyCtx]
  else [.keyCtx]

/-- The octets that are printed, with their headings. -/
def dumps : List Act → List (String × Bytes)
  | [] => []
  | .dump s b :: r => (s, b) :: dumps r
  | _ :: r => dumps r

/-- The sizes that are printed. -/
def sizes : List Act → List (String × Nat)
  | [] => []
  | .size s n :: r => (s, n) :: sizes r
  | _ :: r => sizes r

/-- Every step is said to have succeeded. -/
def allWell : List Act → Bool
  | [] => true
  | .says _ c f :: r => decide (c = 0) && decide (f = 0) && allWell r
  | .undef :: _ => false
  | _ :: r => allWell r

/-- The text in ASCII. -/
def word (s : String) : Item := .tstr (ascii s)

/-- The payload (RFC 8949: a map with text keys; `true` is the simple value 21). -/
def beingItem : Item :=
  .map [(word "BeingType", word "Humanoid"), (word "Greeting", word "We come in peace"),
    (word "ArmCount", .uint 2), (word "HeadCount", .uint 1), (word "BrainSize", word "medium"),
    (word "DrinksWater", .simple 21)]

/-! ## Hexadecimal -/

/-- The value of a hexadecimal digit. -/
def hexVal (c : UInt8) : Option Nat :=
  if 0x30 ≤ c ∧ c ≤ 0x39 then some (c.toNat - 0x30)
  else if 0x61 ≤ c ∧ c ≤ 0x66 then some (c.toNat - 0x57)
  else none

/-- Octets written as pairs of hexadecimal digits, with white space between them. -/
def readHex : Bytes → Option Bytes
  | [] => some []
  | [c] => if c = 0x20 ∨ c = 0x0a then some [] else none
  | c :: d :: r =>
    if c = 0x20 ∨ c = 0x0a then readHex (d :: r)
    else
      match hexVal c, hexVal d with
      | some x, some y => (readHex r).map (UInt8.ofNat (16 * x + y) :: ·)
      | _, _ => none

end TCose.Spec.Examples
