import Verif.Spec.Stop

/-!
# Specification: the parameters of a header in another order

A header is a map, and the order of the entries of a map means nothing (RFC 7049 section 2.1).
-/

namespace TCose.Spec
open TCose

/-- There is a label 0 behind ten other labels that are unknown integers; `n` of them were in an earlier header. -/
def zeroLate : Nat → Header → Bool
  | _, [] => false
  | n, (.int i, _) :: r =>
    if i = 0 then decide (10 ≤ n) || zeroLate n r
    else if 1 ≤ i ∧ i ≤ 6 then zeroLate n r
    else zeroLate (n + 1) r
  | n, (.text _, _) :: r => zeroLate n r

/-- The octets `b` and `b'` are two messages that have the same tags and elements, but for the second: the headers `h` and
`h'`, which have the same entries in some order.  How they are encoded does not matter. -/
structure Reordered (P : QParams) (h h' : Header) (b b' : Bytes) : Prop where
  items : ∃ x x' xs xs' y y', Reads P.maxTags 15 x b ∧ Reads P.maxTags 15 x' b' ∧ x.tagList = x'.tagList ∧
    arrayOf P x = .ok xs ∧ arrayOf P x' = .ok xs' ∧ (∀ i, i ≠ 1 → (xs[i]? : Option Item) = xs'[i]?) ∧
    (xs[1]? : Option Item) = some y ∧ (xs'[1]? : Option Item) = some y' ∧
    y.header? P = .ok h ∧ y'.header? P = .ok h'
  perm : h.Perm h'
  size : b.length ≤ maxMessage
  size' : b'.length ≤ maxMessage

end TCose.Spec
