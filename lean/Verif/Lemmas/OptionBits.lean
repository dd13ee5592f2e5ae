import Verif.TCose.Sign
import Verif.TCose.Verify
import Verif.Spec.Options

/-!
# The options of the model are the documented ones
-/

namespace TCose

theorem opt_shortCircuit (f : Nat) : Spec.Opt.shortCircuit f = hasFlag f optShortCircuit := rfl
theorem opt_omitTag (f : Nat) : Spec.Opt.omitTag f = hasFlag f optOmitTag := rfl
theorem opt_allowShortCircuit (f : Nat) :
    Spec.Opt.allowShortCircuit f = hasFlag f optAllowShortCircuit := rfl
theorem opt_requireKid (f : Nat) : Spec.Opt.requireKid f = hasFlag f optRequireKid := rfl
theorem opt_tagRequired (f : Nat) : Spec.Opt.tagRequired f = hasFlag f optTagRequired := rfl
theorem opt_decodeOnly (f : Nat) : Spec.Opt.decodeOnly f = hasFlag f optDecodeOnly := rfl
theorem opt_tagProhibited (f : Nat) : Spec.Opt.tagProhibited f = hasFlag f optTagProhibited := rfl
theorem opt_unknownCritAllowed (f : Nat) :
    Spec.Opt.unknownCritAllowed f = hasFlag f optUnknownCritAllowed := rfl

end TCose
