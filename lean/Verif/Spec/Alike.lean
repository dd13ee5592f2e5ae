import Verif.Spec.OneMore

/-!
# Specification: messages that say the same
-/

namespace TCose.Spec
open TCose

/-- An entry of a header, without the value if the label is unknown. -/
def knownPart (p : Label × Item) : Label × Option Item :=
  (p.1, match p.1 with
    | .int i => if 1 ≤ i ∧ i ≤ 6 then some p.2 else none
    | .text _ => none)

/-- The octets `b` and `b'` are two messages that have the same tags and elements, but for the second: headers with the
same labels in the same order, and the same values of the labels 1 to 6.  How they are encoded does not matter. -/
structure Alike (P : QParams) (b b' : Bytes) : Prop where
  items : ∃ x x' xs xs', Reads P.maxTags 15 x b ∧ Reads P.maxTags 15 x' b' ∧ x.tagList = x'.tagList ∧
    arrayOf P x = .ok xs ∧ arrayOf P x' = .ok xs' ∧ (∀ i, i ≠ 1 → (xs[i]? : Option Item) = xs'[i]?) ∧
    ∃ y y' h h', (xs[1]? : Option Item) = some y ∧ (xs'[1]? : Option Item) = some y' ∧
      y.header? P = .ok h ∧ y'.header? P = .ok h' ∧ h.map knownPart = h'.map knownPart
  size : b.length ≤ maxMessage
  size' : b'.length ≤ maxMessage

end TCose.Spec
