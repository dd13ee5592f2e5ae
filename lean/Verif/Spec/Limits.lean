import Verif.Spec.Cose
import Verif.Spec.Crypto

/-!
# Specification: numbers of the interface and of the build

Written out on their own, so that statements need not borrow them from the model.
-/

namespace TCose.Spec

/-- `CBOR_TAG_INVALID64`, which says that there is no such tag. -/
def noTag : Nat := 18446744073709551615

/-- The longest message QCBOR decodes: 2³² − 3 octets. -/
def maxMessage : Nat := 4294967293

/-- The stored content-type number that means none was set: one more than the
largest CoAP content format. -/
def noContentType : Nat := 65536

/-- The signing algorithms of RFC 8152 that a build keeps. -/
abbrev algEnabled (cfg : Config) (alg : Int) : Prop :=
  alg = -7 ∨ (alg = -35 ∧ cfg.disableES384 = false) ∨ (alg = -36 ∧ cfg.disableES512 = false) ∨
  (alg = -37 ∧ cfg.disablePS256 = false) ∨ (alg = -38 ∧ cfg.disablePS384 = false) ∨
  (alg = -39 ∧ cfg.disablePS512 = false) ∨ (alg = -8 ∧ cfg.disableEDDSA = false)

/-- The hash function for a signature algorithm, if the build has the algorithm. -/
def hashFor (cfg : Config) (alg : Int) : Option Int :=
  if algEnabled cfg alg then hashOf alg else none

/-- Octets of a digest: SHA-256, SHA-384, SHA-512. -/
def digestSize (h : Int) : Nat :=
  if h = -16 then 32 else if h = -43 then 48 else if h = -44 then 64 else 0

/-- Room for a digest: that of the longest one the build uses. -/
def digestRoom (cfg : Config) : Nat :=
  ((([-7, -35, -36, -37, -38, -39] : List Int).filterMap (hashFor cfg)).map digestSize).foldl max 0

/-- The ECDSA algorithms of the build. -/
def IsEcdsa (cfg : Config) (alg : Int) : Prop :=
  (alg = -7 ∨ alg = -35 ∨ alg = -36) ∧ algEnabled cfg alg

/-- The RSASSA-PSS algorithms of the build. -/
def IsPss (cfg : Config) (alg : Int) : Prop :=
  (alg = -37 ∨ alg = -38 ∨ alg = -39) ∧ algEnabled cfg alg

instance (cfg : Config) (alg : Int) : Decidable (IsEcdsa cfg alg) := by
  unfold IsEcdsa; infer_instance

instance (cfg : Config) (alg : Int) : Decidable (IsPss cfg alg) := by
  unfold IsPss; infer_instance

/-- A hash for the signature algorithm was started, fed something, and finishing it
gave `d`. -/
def HashGives (cfg : Config) (C : Crypto) (alg : Int) (d : Bytes) : Prop :=
  ∃ ha h0 us, hashFor cfg alg = some ha ∧ C.hashStart ha = .ok h0 ∧
    C.hashFinish (List.foldl C.hashUpdate h0 us) (digestRoom cfg) = .ok d

/-- Assumptions for size calculation: hashing never fails once started, gives a
non-empty digest, and the adapter signs such digests whenever it is given the
room it asks for. -/
structure SizeAssm (cfg : Config) (C : Crypto) (alg : Int) (key : Key) : Prop where
  fin : ∀ ha h0 us, hashFor cfg alg = some ha → C.hashStart ha = .ok h0 →
    ∃ d, d ≠ [] ∧ C.hashFinish (List.foldl C.hashUpdate h0 us) (digestRoom cfg) = .ok d
  sign : alg ≠ -8 → ∀ d n k, HashGives cfg C alg d → C.sigSize alg key = .ok k → k ≤ n →
    ∃ s, C.sign alg key d n = .ok s
  eddsa : alg = -8 → ∀ t n k, C.sigSize alg key = .ok k → k ≤ n →
    ∃ s, C.signEddsa key t n = .ok s

end TCose.Spec
