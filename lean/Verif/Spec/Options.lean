/-!
# Specification: the option bits

As documented in inc/t_cose/t_cose_sign1_sign.h:105-133 and
inc/t_cose/t_cose_sign1_verify.h:110-188: each option is one bit of the option
flags, independent of the others.
-/

namespace TCose.Spec.Opt

/-- Signing, 0x01: make a short-circuit signature. -/
def shortCircuit (flags : Nat) : Bool := flags.testBit 0
/-- Signing, 0x02: leave out the tag 18. -/
def omitTag (flags : Nat) : Bool := flags.testBit 1

/-- Verification, 0x01: accept short-circuit signatures. -/
def allowShortCircuit (flags : Nat) : Bool := flags.testBit 0
/-- Verification, 0x02: a kid is required. -/
def requireKid (flags : Nat) : Bool := flags.testBit 1
/-- Verification, 0x04: the tag 18 is required. -/
def tagRequired (flags : Nat) : Bool := flags.testBit 2
/-- Verification, 0x08: decode without verifying the signature. -/
def decodeOnly (flags : Nat) : Bool := flags.testBit 3
/-- Verification, 0x10: the tag 18 must be absent. -/
def tagProhibited (flags : Nat) : Bool := flags.testBit 4
/-- Verification, 0x20: unknown critical parameters are no fault. -/
def unknownCritAllowed (flags : Nat) : Bool := flags.testBit 5

end TCose.Spec.Opt
