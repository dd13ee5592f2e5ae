import Verif.Spec.Cbor

/-!
# Specification: the two encodings of an ECDSA signature

RFC 8152 section 8.1: r and s converted with I2OSP (RFC 8017 section 4.1) to
octet strings of the length of the key rounded up to octets, and concatenated;
and the DER encoding (X.690) of `ECDSA-Sig-Value ::= SEQUENCE { r INTEGER,
s INTEGER }` (RFC 3279 section 2.2.3).
-/

namespace TCose.Spec

/-- The COSE form for a key of `w` octets. -/
def coseSig (w r s : Nat) : Bytes := netOrder w r ++ netOrder w s

/-- The number of octets of an INTEGER that is not negative: the least number that
leaves room for a sign bit. -/
def intLen (n : Nat) : Nat := (n.log2 + 1) / 8 + 1

/-- Length octets (X.690 8.1.3), for lengths below 65536. -/
def derLen (n : Nat) : Bytes :=
  if n < 128 then [UInt8.ofNat n]
  else if n < 256 then [0x81, UInt8.ofNat n]
  else 0x82 :: netOrder 2 n

def derInt (n : Nat) : Bytes := 0x02 :: derLen (intLen n) ++ netOrder (intLen n) n

def derSig (r s : Nat) : Bytes :=
  0x30 :: derLen (derInt r ++ derInt s).length ++ (derInt r ++ derInt s)

end TCose.Spec
