import Verif.Spec.TestKeys
import Verif.Spec.Der

/-!
# Specification: two crypto libraries that understand each other

OpenSSL has ECDSA signatures as DER, PSA as two numbers of the size of the curve, which is
also the format of COSE (RFC 8152, section 8.1). RSASSA-PSS signatures are the same everywhere.
-/

namespace TCose.Spec
open TCose

/-- Both libraries compute the same SHA-2. -/
def SameDigests (DO : Int → Bytes → Bytes) (DP : TCose.Psa.HashAlg → Bytes → Bytes) : Prop :=
  ∀ ha, ha = -16 ∨ ha = -43 ∨ ha = -44 → DO ha = DP (Psa.hashTable ha)

/-- What OpenSSL signs with `sk`, PSA verifies with `pk`. -/
structure OpensslToPsa (LO : TCose.Ossl.Lib) (LP : TCose.Psa.Lib) (alg : Int) (sk pk : Nat) : Prop where
  ecdsa : ∀ w, coordOf alg = some w → Ossl.keyOctets LO sk = w ∧
    ∀ h n der, LO.pkeySign sk .plain h n = (1, der) → ∃ r s, LO.d2i der = some (r, s) ∧
      r < 256 ^ w ∧ s < 256 ^ w ∧ LP.verifyHash pk (Psa.sigId alg) h (coseSig w r s) = 0
  pss : ∀ ha, coordOf alg = none → hashOf alg = some ha → ∀ h n s,
    LO.pkeySign sk (.pss ha ha true) h n = (1, s) → LP.verifyHash pk (Psa.sigId alg) h s = 0

/-- What PSA signs with `sk`, OpenSSL verifies with `pk`. -/
structure PsaToOpenssl (LP : TCose.Psa.Lib) (LO : TCose.Ossl.Lib) (alg : Int) (sk pk : Nat) : Prop where
  ecdsa : ∀ w, coordOf alg = some w → Ossl.keyOctets LO pk = w ∧
    ∀ h n sig, LP.signHash sk (Psa.sigId alg) h n = (0, sig) → ∃ r s, sig = coseSig w r s ∧
      r < 256 ^ w ∧ s < 256 ^ w ∧ LO.pkeyVerify pk .plain (derSig r s) h = 1
  pss : ∀ ha, coordOf alg = none → hashOf alg = some ha → ∀ h n sig,
    LP.signHash sk (Psa.sigId alg) h n = (0, sig) → LO.pkeyVerify pk (.pss ha ha true) sig h = 1

end TCose.Spec
