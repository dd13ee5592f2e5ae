import Verif.Spec.Stop

/-!
# Specification: the payload taken out of a message
-/

namespace TCose.Spec
open TCose

/-- The octets `b` and `b'` are two messages that have the same tags and elements, but for the third: the byte string
`p`, and null, in spite of tags.  How they are encoded does not matter. -/
structure MovedOut (P : QParams) (p b b' : Bytes) : Prop where
  items : ∃ x x' xs xs' z, Reads P.maxTags 15 x b ∧ Reads P.maxTags 15 x' b' ∧ x.tagList = x'.tagList ∧
    arrayOf P x = .ok xs ∧ arrayOf P x' = .ok xs' ∧ (∀ i, i ≠ 2 → (xs[i]? : Option Item) = xs'[i]?) ∧
    (xs[2]? : Option Item) = some (.bstr p) ∧ (xs'[2]? : Option Item) = some z ∧ z.untag P = .null
  size : b.length ≤ maxMessage
  size' : b'.length ≤ maxMessage

end TCose.Spec
