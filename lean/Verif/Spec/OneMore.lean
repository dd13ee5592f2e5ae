import Verif.Spec.Stop

/-!
# Specification: one more parameter in the unprotected header
-/

namespace TCose.Spec
open TCose

/-- Not one of the labels 1 to 6, whose meaning t_cose knows. -/
def Label.unknown : Label → Prop
  | .int i => ¬ (1 ≤ i ∧ i ≤ 6)
  | .text _ => True

/-- The label is no 64-bit signed number. -/
def Label.tooLarge : Label → Bool
  | .int i => decide (9223372036854775807 < i)
  | .text _ => false

/-- There are ten unknown labels of the kind of this one.  A label 0 does not count. -/
def Known.full (k : Known) : Label → Bool
  | .int _ => decide (k.ints.length = 10)
  | .text _ => decide (k.texts.length = 10)

/-- The label is critical.  Of the integers in crit, those behind a 0 do not count. -/
def Known.lists (k : Known) : Label → Bool
  | .int i => decide (i ∈ k.critInts.takeWhile (· != 0))
  | .text t => decide (t ∈ k.critTexts)

/-- The octets `b` and `b'` are two messages that have the same tags and elements, but for the second: the headers `h`, and
`h` with an unknown parameter more behind it.  How they are encoded does not matter. -/
structure OneMore (P : QParams) (h : Header) (l : Label) (v : Item) (b b' : Bytes) : Prop where
  items : ∃ x x' xs xs' y y', Reads P.maxTags 15 x b ∧ Reads P.maxTags 15 x' b' ∧ x.tagList = x'.tagList ∧
    arrayOf P x = .ok xs ∧ arrayOf P x' = .ok xs' ∧ (∀ i, i ≠ 1 → (xs[i]? : Option Item) = xs'[i]?) ∧
    (xs[1]? : Option Item) = some y ∧ (xs'[1]? : Option Item) = some y' ∧
    y.header? P = .ok h ∧ y'.header? P = .ok (h ++ [(l, v)])
  unknown : Label.unknown l
  size : b.length ≤ maxMessage
  size' : b'.length ≤ maxMessage

end TCose.Spec
