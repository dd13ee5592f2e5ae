import Verif.Spec.Options
import Verif.Basic

/-!
# Specification: one option more

The options of verification (inc/t_cose/t_cose_sign1_verify.h:110-188) one by one, and what may come of adding one.
-/

namespace TCose.Spec

/-- The options of verification. -/
inductive VOption where
  | allowShortCircuit | requireKid | tagRequired | decodeOnly | tagProhibited | unknownCritAllowed
  deriving DecidableEq, Repr

/-- Whether it is in a word of options. -/
def VOption.on : VOption → Nat → Bool
  | .allowShortCircuit => Opt.allowShortCircuit
  | .requireKid => Opt.requireKid
  | .tagRequired => Opt.tagRequired
  | .decodeOnly => Opt.decodeOnly
  | .tagProhibited => Opt.tagProhibited
  | .unknownCritAllowed => Opt.unknownCritAllowed

/-- The words `f` and `f'` differ in the option `o` and in no other, and `f'` has it. -/
structure VOption.Added (o : VOption) (f f' : Nat) : Prop where
  off : o.on f = false
  on : o.on f' = true
  rest : ∀ o', o' ≠ o → o'.on f' = o'.on f

/-- What may become of a result when the option is added: a requirement replaces it by its own error, a permission
replaces the error that it is about, and decode-only makes it a success. -/
def VOption.changes (o : VOption) (before after : Except Err Unit) : Prop :=
  match o with
  | .tagRequired | .tagProhibited => after = .error .incorrectlyTagged
  | .requireKid => after = .error .noKid
  | .unknownCritAllowed => before = .error .unknownCriticalParameter
  | .allowShortCircuit => before = .error .shortCircuitSig
  | .decodeOnly => after = .ok ()

end TCose.Spec
