import Verif.Spec.Stop

/-!
# Specification: another key id
-/

namespace TCose.Spec
open TCose

/-- The octets `b` and `b'` are two messages that have the same tags and elements, but for the second: headers that differ in
a key id, which is `k` or `k'`.  How they are encoded does not matter. -/
structure OtherKid (P : QParams) (k k' b b' : Bytes) : Prop where
  items : ∃ x x' xs xs' y y' pre post, Reads P.maxTags 15 x b ∧ Reads P.maxTags 15 x' b' ∧ x.tagList = x'.tagList ∧
    arrayOf P x = .ok xs ∧ arrayOf P x' = .ok xs' ∧ (∀ i, i ≠ 1 → (xs[i]? : Option Item) = xs'[i]?) ∧
    (xs[1]? : Option Item) = some y ∧ (xs'[1]? : Option Item) = some y' ∧
    y.header? P = .ok (pre ++ (Label.int 4, .bstr k) :: post) ∧ y'.header? P = .ok (pre ++ (Label.int 4, .bstr k') :: post)
  size : b.length ≤ maxMessage
  size' : b'.length ≤ maxMessage

/-- An adapter that does not look at the key id. -/
def KidBlind (C : Crypto) : Prop :=
  (∀ alg key k k' d s, C.verify alg key k d s = C.verify alg key k' d s) ∧
  ∀ key k k' t s, C.verifyEddsa key k t s = C.verifyEddsa key k' t s

end TCose.Spec
