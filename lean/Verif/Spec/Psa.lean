import Verif.Adapters.Psa
import Verif.Spec.Limits

/-!
# Specification: use of the PSA library

What the PSA Crypto API specification promises, as hypotheses for theorems, and the
life of a hash operation.
-/

namespace TCose.Spec.Psa
open TCose TCose.Psa

/-- Whether a hash operation is still active after the calls made on it: after a
successful set-up until finishing succeeds or it is aborted (psa/crypto.h,
`psa_hash_setup`, `psa_hash_finish`, `psa_hash_abort`). -/
def live : Bool → List OpCall → Bool
  | b, [] => b
  | _, .setup st :: l => live (st == success) l
  | b, .update _ :: l => live b l
  | b, .finish st :: l => live (b && st != success) l
  | _, .abort :: l => live false l

/-- The octets of a digest. -/
def digestLen : HashAlg → Nat
  | .sha256 => 32
  | .sha384 => 48
  | .sha512 => 64
  | .bad => 0

/-- The PSA hash of a COSE hash algorithm. -/
def hashTable (alg : Int) : HashAlg :=
  if alg = -16 then .sha256 else if alg = -43 then .sha384 else if alg = -44 then .sha512 else .bad

/-- The PSA hash to set up: known if a signature algorithm of the build hashes with it. -/
def hashId (cfg : Config) (alg : Int) : HashAlg :=
  if some alg ∈ ([-7, -35, -36, -37, -38, -39] : List Int).map (hashFor cfg) then hashTable alg else .bad

/-- The PSA signature algorithm of a COSE signature algorithm: ES256, ES384, ES512,
PS256, PS384, PS512. -/
def sigId (alg : Int) : SigAlg :=
  if alg = -7 then .ecdsa .sha256 else if alg = -35 then .ecdsa .sha384
  else if alg = -36 then .ecdsa .sha512 else if alg = -37 then .pss .sha256
  else if alg = -38 then .pss .sha384 else if alg = -39 then .pss .sha512 else .zero

/-- The hash calls compute `D alg` of what was fed in, whenever they report success;
`A` tells what an operation holds. A digest has the length of its algorithm and
is written only if it fits. -/
structure Digests (L : Lib) (D : HashAlg → Bytes → Bytes) (A : L.Op → HashAlg → Bytes → Prop) :
    Prop where
  init : ∀ a, (L.hashSetup a).1 = success → A (L.hashSetup a).2 a []
  update : ∀ op a b u, A op a b → (L.hashUpdate op u).1 = success → A (L.hashUpdate op u).2 a (b ++ u)
  final : ∀ op a b n, A op a b → (L.hashFinish op n).1 = success → (L.hashFinish op n).2 = D a b

/-- Results fit the buffers they are written to, and digests are not empty. -/
structure Fits (L : Lib) : Prop where
  hash : ∀ op n, (L.hashFinish op n).1 = success →
    (L.hashFinish op n).2 ≠ [] ∧ (L.hashFinish op n).2.length ≤ n
  sign : ∀ k a h n, (L.signHash k a h n).1 = success → (L.signHash k a h n).2.length ≤ n

/-- A key that signs has attributes, and `PSA_SIGN_OUTPUT_SIZE` is the size of its
signatures. -/
def Sizes (L : Lib) : Prop :=
  ∀ k a h n, (L.signHash k a h n).1 = success → (L.keyAttributes k).1 = success ∧
    (L.signHash k a h n).2.length =
      L.signOutputSize (L.keyAttributes k).2.1 (L.keyAttributes k).2.2 a

/-- What key `sk` signs, key `pk` verifies. -/
def Verifies (L : Lib) (sk pk : Nat) : Prop :=
  ∀ a h n, (L.signHash sk a h n).1 = success →
    L.verifyHash pk a h (L.signHash sk a h n).2 = success

/-- Hashing with the algorithms known does not fail with room for the digest, and
signing with `k` does not fail with the room `PSA_SIGN_OUTPUT_SIZE` asks for. -/
structure Signs (L : Lib) (A : L.Op → HashAlg → Bytes → Prop) (k : Nat) : Prop where
  update : ∀ op u, (L.hashUpdate op u).1 = success
  final : ∀ op a b n, A op a b → digestLen a ≤ n → (L.hashFinish op n).1 = success
  sign : ∀ a h n, a ≠ .zero → L.signOutputSize (L.keyAttributes k).2.1 (L.keyAttributes k).2.2 a ≤ n →
      (L.signHash k a h n).1 = success

end TCose.Spec.Psa
