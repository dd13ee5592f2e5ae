import Verif.Spec.Openssl
import Verif.Spec.Psa

/-!
# Specification: keys of the crypto libraries

What a library does with a key that is right for an algorithm: the signatures it makes have
the size the standards give, and it accepts them.
-/

namespace TCose.Spec
open TCose

/-- Octets of a coordinate: P-256, P-384 and P-521 for ES256, ES384 and ES512 (RFC 8152,
section 8.1, and the "obvious curve" of test/t_cose_make_psa_test_key.c:74-77). -/
def coordOf (alg : Int) : Option Nat :=
  if alg = -7 then some 32 else if alg = -35 then some 48 else if alg = -36 then some 66 else none

/-- Octets of a signature: two coordinates; 2048 bits for the RSA key; 64 for Ed25519. -/
def sigOctets (alg : Int) : Nat :=
  match coordOf alg with
  | some w => 2 * w
  | none => if alg = -8 then 64 else 256

namespace Ossl
open TCose.Ossl

/-- The three hash functions of SHA-2 work. -/
structure Hashing (L : Lib) (D : Int → Bytes → Bytes) (A : L.Md → Int → Bytes → Prop) : Prop where
  digests : Digests L D A
  known : ∀ alg, alg = -16 ∨ alg = -43 ∨ alg = -44 → L.digestByNid alg = true ∧ (L.digestInit alg).1 ≠ 0
  update : ∀ md alg b u, A md alg b → (L.digestUpdate md u).1 ≠ 0
  final : ∀ md alg b, A md alg b → (L.digestFinal md).1 ≠ 0
  len : ∀ alg b, (D alg b).length = digestSize alg

/-- A key on a curve with `w` octets: a hash of `d` octets is signed, given the room that DER
needs. -/
structure EcKey (L : Lib) (k w d : Nat) : Prop where
  octets : keyOctets L k = w
  signs : ∀ h n, h.length = d → 2 * w + 9 ≤ n → ∃ der r s, L.pkeySign k .plain h n = (1, der) ∧
    L.d2i der = some (r, s) ∧ r < 256 ^ w ∧ s < 256 ^ w ∧ L.pkeyVerify k .plain (derSig r s) h = 1

/-- An RSA key of 2048 bits, used with PSS and a hash. -/
structure PssKey (L : Lib) (k : Nat) (ha : Int) : Prop where
  size : L.size k = 256
  signs : ∀ h n, h.length = digestSize ha → 256 ≤ n → ∃ s, L.pkeySign k (.pss ha ha true) h n = (1, s) ∧
    s.length = 256 ∧ L.pkeyVerify k (.pss ha ha true) s h = 1

/-- An Ed25519 key. -/
structure EdKey (L : Lib) (k : Nat) : Prop where
  size : L.size k = 64
  signs : ∀ m n, 64 ≤ n → ∃ s, L.digestSign k m n = (1, s) ∧ s.length = 64 ∧ L.digestVerify k s m = 1

/-- A key for an algorithm. -/
structure KeyFor (L : Lib) (k : Nat) (alg : Int) : Prop where
  notNull : k ≠ 0
  ec : ∀ w ha, coordOf alg = some w → hashOf alg = some ha → EcKey L k w (digestSize ha)
  pss : ∀ ha, coordOf alg = none → hashOf alg = some ha → PssKey L k ha
  ed : alg = -8 → EdKey L k

/-- The library accepts a COSE signature of `t`. -/
structure Accepts (L : Lib) (D : Int → Bytes → Bytes) (k : Nat) (alg : Int) (t sig : Bytes) : Prop where
  ec : ∀ w ha, coordOf alg = some w → hashOf alg = some ha → ∃ r s, sig = coseSig w r s ∧
    r < 256 ^ w ∧ s < 256 ^ w ∧ L.pkeyVerify k .plain (derSig r s) (D ha t) = 1
  pss : ∀ ha, coordOf alg = none → hashOf alg = some ha → L.pkeyVerify k (.pss ha ha true) sig (D ha t) = 1
  ed : alg = -8 → L.digestVerify k sig t = 1

end Ossl

namespace Psa
open TCose.Psa

/-- The three hash functions of SHA-2 work. -/
structure Hashing (L : Lib) (D : HashAlg → Bytes → Bytes) (A : L.Op → HashAlg → Bytes → Prop) :
    Prop where
  digests : Digests L D A
  known : ∀ a, a ≠ .bad → (L.hashSetup a).1 = success
  update : ∀ op a b u, A op a b → (L.hashUpdate op u).1 = success
  final : ∀ op a b n, A op a b → digestLen a ≤ n → (L.hashFinish op n).1 = success
  len : ∀ a b, (D a b).length = digestLen a

/-- A key that was imported for an algorithm: a hash of `d` octets is signed, given room for
the `n` octets of a signature. -/
structure KeyFor (L : Lib) (k : Nat) (a : SigAlg) (d n : Nat) : Prop where
  attr : (L.keyAttributes k).1 = success
  size : L.signOutputSize (L.keyAttributes k).2.1 (L.keyAttributes k).2.2 a = n
  signs : ∀ h room, h.length = d → n ≤ room → (L.signHash k a h room).1 = success ∧
    (L.signHash k a h room).2.length = n ∧ L.verifyHash k a h (L.signHash k a h room).2 = success

end Psa

end TCose.Spec
