import Verif.Basic

/-!
# Specification: keys that an adapter treats alike in signing
-/

namespace TCose.Spec
open TCose

/-- The adapter gives the same answers for both keys when asked for the size of a signature or for a signature. -/
structure KeysAlike (C : Crypto) (alg : Int) (key key' : Key) : Prop where
  size : C.sigSize alg key = C.sigSize alg key'
  sign : ∀ h n, C.sign alg key h n = C.sign alg key' h n
  eddsa : ∀ t n, C.signEddsa key t n = C.signEddsa key' t n

end TCose.Spec
