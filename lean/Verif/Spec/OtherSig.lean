import Verif.Spec.Stop

/-!
# Specification: another signature
-/

namespace TCose.Spec
open TCose

/-- The octets `b` and `b'` are two messages that have the same tags and elements, but for the fourth: the byte strings `s`
and `s'`.  How they are encoded does not matter. -/
structure OtherSig (P : QParams) (s s' b b' : Bytes) : Prop where
  items : ∃ x x' xs xs', Reads P.maxTags 15 x b ∧ Reads P.maxTags 15 x' b' ∧ x.tagList = x'.tagList ∧
    arrayOf P x = .ok xs ∧ arrayOf P x' = .ok xs' ∧ (∀ i, i ≠ 3 → (xs[i]? : Option Item) = xs'[i]?) ∧
    (xs[3]? : Option Item) = some (.bstr s) ∧ (xs'[3]? : Option Item) = some (.bstr s')
  size : b.length ≤ maxMessage
  size' : b'.length ≤ maxMessage

/-- The ways to judge a signature: no look at it; the adapter, about a hash or, for EdDSA, about what was signed, with
the key of the caller; or, for a short-circuit signature, that it begins with the hash.  A signature is looked at only if
the caller did not ask for decoding alone, and a short-circuit one only if the caller allows it and the build has it. -/
inductive Judges (cfg : Config) (C : Crypto) (key : Key) (decodeOnly allowShort : Bool) :
    (Bytes → Except Err Unit) → Prop where
  | blind (r : Except Err Unit) : Judges cfg C key decodeOnly allowShort fun _ => r
  | hash (alg : Int) (kid : Option Bytes) (d : Bytes) (h : decodeOnly = false) :
      Judges cfg C key decodeOnly allowShort fun s => C.verify alg key kid d s
  | whole (kid : Option Bytes) (tbs : Bytes) (h : decodeOnly = false) (he : cfg.disableEDDSA = false) :
      Judges cfg C key decodeOnly allowShort fun s => C.verifyEddsa key kid tbs s
  | short (d : Bytes) (h : decodeOnly = false) (ha : allowShort = true) (hc : cfg.disableShortCircuit = false) :
      Judges cfg C key decodeOnly allowShort fun s => if d <+: s then .ok () else .error .sigVerify

end TCose.Spec
