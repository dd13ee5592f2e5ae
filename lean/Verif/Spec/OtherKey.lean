import Verif.Spec.Stop

/-!
# Specification: another key
-/

namespace TCose.Spec
open TCose

/-- What a verification key is used for: nothing, or to ask the adapter about a signature, over a hash or, for EdDSA, over
what was signed.  It is used only if the caller did not ask for decoding alone. -/
inductive KeyUse (cfg : Config) (C : Crypto) (decodeOnly : Bool) : (Key → Except Err Unit) → Prop where
  | unused (r : Except Err Unit) : KeyUse cfg C decodeOnly fun _ => r
  | hash (alg : Int) (kid : Option Bytes) (d sig : Bytes) (h : decodeOnly = false) :
      KeyUse cfg C decodeOnly fun key => C.verify alg key kid d sig
  | whole (kid : Option Bytes) (tbs sig : Bytes) (h : decodeOnly = false) (he : cfg.disableEDDSA = false) :
      KeyUse cfg C decodeOnly fun key => C.verifyEddsa key kid tbs sig

end TCose.Spec
