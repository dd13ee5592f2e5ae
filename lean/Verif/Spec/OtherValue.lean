import Verif.Spec.Stop

/-!
# Specification: another IV, Partial IV or content type
-/

namespace TCose.Spec
open TCose

/-- Two values of one kind for the parameter with this label (RFC 8152 table 2): IV (5), Partial IV (6), and the content type
(3) as a text or as a number of a CoAP content format. -/
inductive SameKind : Int → Item → Item → Prop where
  | iv (q q' : Bytes) : SameKind 5 (.bstr q) (.bstr q')
  | partialIv (q q' : Bytes) : SameKind 6 (.bstr q) (.bstr q')
  | ctText (t t' : Bytes) : SameKind 3 (.tstr t) (.tstr t')
  | ctNum {n n' : Nat} (h : n ≤ 65535) (h' : n' ≤ 65535) : SameKind 3 (.uint n) (.uint n')

/-- The octets `b` and `b'` are two messages that have the same tags and elements, but for the second: headers that differ in
the value of the parameter `i`, which is `v` or `v'`.  How they are encoded does not matter. -/
structure OtherValue (P : QParams) (i : Int) (v v' : Item) (b b' : Bytes) : Prop where
  items : ∃ x x' xs xs' y y' pre post, Reads P.maxTags 15 x b ∧ Reads P.maxTags 15 x' b' ∧ x.tagList = x'.tagList ∧
    arrayOf P x = .ok xs ∧ arrayOf P x' = .ok xs' ∧ (∀ j, j ≠ 1 → (xs[j]? : Option Item) = xs'[j]?) ∧
    (xs[1]? : Option Item) = some y ∧ (xs'[1]? : Option Item) = some y' ∧
    y.header? P = .ok (pre ++ (Label.int i, v) :: post) ∧ y'.header? P = .ok (pre ++ (Label.int i, v') :: post)
  size : b.length ≤ maxMessage
  size' : b'.length ≤ maxMessage

end TCose.Spec
