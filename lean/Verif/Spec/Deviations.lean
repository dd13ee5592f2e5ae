import Verif.Spec.Verdict

/-!
# Specification: rules that headers may break and still be accepted

Each constructor names one rule of `Message.Valid` that is not enforced.
-/

namespace TCose.Spec
open TCose

/-- Labels of RFC 8152 table 2. -/
def Label.inTable : Label → Prop
  | .int i => 1 ≤ i ∧ i ≤ 6
  | .text _ => False

/-- How often a label is used in both headers together. -/
def Message.uses (m : Message) (l : Label) : Nat := (m.headers.map (·.1)).count l

/-- The kinds of deviation. -/
inductive Deviation
  | repeated | contentTypes | unreadContentType | wideAlg | zeroLabel | emptyCrit

/-- The header parameters deviate from the rules in the way named; `noCt` says whether the
library was built not to look at content types. -/
inductive Message.DeviatesBy (noCt : Bool) (m : Message) : Deviation → Prop
  /-- A label that is not in table 2 is used twice. -/
  | repeated (l : Label) : ¬ l.inTable → 2 ≤ m.uses l → DeviatesBy noCt m .repeated
  /-- There is a content type in both headers: text in one and a number in the other, or
  texts of which the protected one is empty, or whatever there is, in a build that does not
  look at it. -/
  | contentTypes (x y : Item) : (Label.int 3, x) ∈ m.prot → (Label.int 3, y) ∈ m.unprot →
      (noCt = true ∨ (∃ t n, (x = .tstr t ∧ y = .uint n) ∨ (x = .uint n ∧ y = .tstr t)) ∨
        ∃ t, x = .tstr [] ∧ y = .tstr t) → DeviatesBy noCt m .contentTypes
  /-- There is a content type that is neither text nor a number of 16 bits, in a build that
  does not look at it. -/
  | unreadContentType (x : Item) : noCt = true → (Label.int 3, x) ∈ m.headers →
      (∀ t, x ≠ .tstr t) → (∀ n, n ≤ 65535 → x ≠ .uint n) → DeviatesBy noCt m .unreadContentType
  /-- The algorithm is a number below those of 32 bits. -/
  | wideAlg (i : Int) : (Label.int 1, Spec.int i) ∈ m.prot → i < -2147483648 →
      DeviatesBy noCt m .wideAlg
  /-- The label 0 is used, and there are more than ten integer labels outside table 2. -/
  | zeroLabel (x : Item) : (Label.int 0, x) ∈ m.headers →
      10 < (Header.unknownInts m.headers).length → DeviatesBy noCt m .zeroLabel
  /-- crit lists 0 or the empty text, but it does not have these (or none of the kind) as the
  first of its integers and the first of its texts. -/
  | emptyCrit (ls : List Label) : m.IsCrit ls → Label.int 0 ∈ ls ∨ Label.text [] ∈ ls →
      ¬ ((labelInts ls).headD 0 = 0 ∧ (labelTexts ls).headD [] = []) → DeviatesBy noCt m .emptyCrit

/-- The header parameters deviate from the rules in one of these ways. -/
def Message.Deviates (noCt : Bool) (m : Message) : Prop := ∃ d, m.DeviatesBy noCt d

end TCose.Spec
