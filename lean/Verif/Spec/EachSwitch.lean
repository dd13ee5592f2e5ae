import Verif.Spec.Limits
import Verif.Spec.Crypto

/-!
# Specification: builds that differ in some switches

The switches `T_COSE_DISABLE_...` (README.md, "Configuration") and what a build without something may change.
-/

namespace TCose.Spec

/-- The build `b` is the build `a` without some of its algorithms. -/
structure FewerAlgorithms (a b : Config) : Prop where
  shortCircuit : b.disableShortCircuit = a.disableShortCircuit
  contentType : b.disableContentType = a.disableContentType
  algs : ∀ alg, algEnabled b alg → algEnabled a alg

/-- The adapter `C` of the build `a` and the adapter `C'` of the build `b` compute the same digest `D` with every hash that
the build uses, in the room of the build and from pieces of at most `N` octets, and verify alike with
the key `key` what the build `b` has. -/
structure AlikeFor (N : Nat) (a b : Config) (C C' : Crypto) (D : Int → Bytes → Bytes)
    (key : Key) : Prop where
  hash : ∀ alg ha, hashFor a alg = some ha → HashesUpTo N C ha (digestRoom a) (D ha)
  hash' : ∀ alg ha, hashFor b alg = some ha → HashesUpTo N C' ha (digestRoom b) (D ha)
  verify : ∀ alg, algEnabled b alg → alg ≠ algEDDSA → ∀ kid h s, C'.verify alg key kid h s = C.verify alg key kid h s
  eddsa : algEnabled b algEDDSA → ∀ kid tbs s, C'.verifyEddsa key kid tbs s = C.verifyEddsa key kid tbs s

/-- The build `b` is the build `a` without short-circuit signatures. -/
structure NoShortCircuit (a b : Config) : Prop where
  was : a.disableShortCircuit = false
  now : b = { a with disableShortCircuit := true }

/-- The build `b` is the build `a` without the content type. -/
structure NoContentType (a b : Config) : Prop where
  was : a.disableContentType = false
  now : b = { a with disableContentType := true }

/-- The errors that only the content type can cause, or that it can cause too. -/
def contentTypeFaults : List Err := [.badContentType, .duplicateParameter]

/-- The adapters `C` and `C'` of two builds sign alike with this algorithm and key. -/
structure SignAlike (C C' : Crypto) (alg : Int) (key : Key) : Prop where
  sign : ∀ d n, C'.sign alg key d n = C.sign alg key d n
  size : C'.sigSize alg key = C.sigSize alg key
  eddsa : ∀ tbs n, C'.signEddsa key tbs n = C.signEddsa key tbs n

end TCose.Spec
