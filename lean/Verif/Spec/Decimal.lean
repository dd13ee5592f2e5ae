import Verif.Basic

/-! # Specification: decimal notation -/

namespace TCose.Spec

/-- Decimal digits of a number, least significant last. -/
def decimal (n : Nat) : Bytes :=
  if n < 10 then [UInt8.ofNat (0x30 + n)]
  else decimal (n / 10) ++ [UInt8.ofNat (0x30 + n % 10)]
termination_by n

/-- Decimal notation of an integer. -/
def signedDecimal (i : Int) : Bytes :=
  if i < 0 then 0x2d :: decimal i.natAbs else decimal i.natAbs

end TCose.Spec
