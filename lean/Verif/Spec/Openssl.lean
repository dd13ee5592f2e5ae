import Verif.Adapters.Openssl
import Verif.Spec.Der
import Verif.Spec.Crypto

/-!
# Specification: use of the OpenSSL library

What the library documentation promises, as hypotheses for theorems, and when a
log of allocations is free of leaks and double frees.
-/

namespace TCose.Spec.Ossl
open TCose TCose.Ossl

/-! ## Objects -/

/-- Follows one object through a log; `live` tells whether it is allocated. `none`: it
was allocated while live (the first one is lost) or freed while not live. -/
def track (o : Obj) : Bool → Log → Option Bool
  | live, [] => some live
  | live, .alloc o' :: l =>
    if o' = o then (if live then none else track o true l) else track o live l
  | live, .free o' :: l =>
    if o' = o then (if live then track o false l else none) else track o live l
  | live, .key _ :: l => track o live l

/-- Everything allocated was freed, exactly once. -/
def Clean (l : Log) : Prop := ∀ o, track o false l = some false

instance (l : Log) : Decidable (Clean l) :=
  decidable_of_iff (∀ o ∈ [Obj.rBn, .sBn, .ecdsaSig, .der, .pkeyCtx, .mdCtx],
      track o false l = some false) <| by
    constructor
    · intro h o; exact h o (by cases o <;> simp)
    · intro h o _; exact h o

/-- Octets of a coordinate for a key: its bits, rounded up. -/
def keyOctets (L : Lib) (k : Nat) : Nat := (L.bits k + 7) / 8

/-- Octets of a coordinate of the largest curve the build has an ECDSA algorithm for
(P-521, P-384 or P-256). -/
def largestKey (cfg : Config) : Nat :=
  if cfg.disableES512 = false then 66 else if cfg.disableES384 = false then 48 else 32

/-- Room for the library's form of an ECDSA signature: two coordinates and 16 octets. -/
def derRoom (cfg : Config) : Nat := 2 * largestKey cfg + 16

/-- The number needs `a` octets. -/
def NeedsOctets (n a : Nat) : Prop := n < 256 ^ a ∧ ∀ b, n < 256 ^ b → a ≤ b

/-! ## The library -/

/-- Enough memory, and every set-up call succeeds. -/
structure Works (L : Lib) : Prop where
  bnR : L.bnR = true
  bnS : L.bnS = true
  sigNew : L.sigNew = true
  set0 : L.set0 = 1
  ctxNew : L.ctxNew = true
  signInit : L.signInit = 1
  verifyInit : L.verifyInit = 1
  setPadding : L.setPadding = 1
  setMd : L.setMd = 1
  setMgf1 : L.setMgf1 = 1
  setSalt : L.setSalt = 1
  mdCtxNew : L.mdCtxNew = true
  dsInit : L.dsInit = 1
  dvInit : L.dvInit = 1

/-- The octets of a digest. -/
def digestLen (alg : Int) : Nat :=
  if alg = algSHA256 then 32 else if alg = algSHA384 then 48 else if alg = algSHA512 then 64 else 0

/-- The digest calls compute `D alg` of what was fed in, whenever they do not
report failure by 0; `A` tells what a context holds. -/
structure Digests (L : Lib) (D : Int → Bytes → Bytes) (A : L.Md → Int → Bytes → Prop) : Prop where
  init : ∀ alg, (L.digestInit alg).1 ≠ 0 → A (L.digestInit alg).2 alg []
  update : ∀ md alg b u, A md alg b → (L.digestUpdate md u).1 ≠ 0 →
    A (L.digestUpdate md u).2 alg (b ++ u)
  final : ∀ md alg b, A md alg b → (L.digestFinal md).1 ≠ 0 → (L.digestFinal md).2 = D alg b

/-- `EVP_PKEY_sign` and `EVP_DigestSign` respect the size of the buffer they are
given. -/
structure Fits (L : Lib) : Prop where
  pkey : ∀ k pc h n s, L.pkeySign k pc h n = (1, s) → s.length ≤ n
  digest : ∀ k m n s, L.digestSign k m n = (1, s) → s.length ≤ n

/-- The numbers in an ECDSA signature are below 256 to the octets of the key;
`EVP_PKEY_size` is the size of RSA and EdDSA signatures. -/
structure Sizes (L : Lib) (k w : Nat) : Prop where
  pss : ∀ md h n s, L.pkeySign k (.pss md md true) h n = (1, s) → s.length = L.size k
  eddsa : ∀ m n s, L.digestSign k m n = (1, s) → s.length = L.size k
  ecdsa : ∀ h n der, L.pkeySign k .plain h n = (1, der) →
    ∃ r s, L.d2i der = some (r, s) ∧ r < 256 ^ w ∧ s < 256 ^ w

/-- What `sk` signs, `pk` verifies, in the library's own formats; ECDSA signatures
are DER. -/
structure Verifies (L : Lib) (sk pk w : Nat) : Prop where
  i2d : ∀ r s, L.i2d r s = some (derSig r s)
  ecdsa : ∀ h n der, L.pkeySign sk .plain h n = (1, der) →
    ∃ r s, L.d2i der = some (r, s) ∧ r < 256 ^ w ∧ s < 256 ^ w ∧
      L.pkeyVerify pk .plain (derSig r s) h = 1
  pss : ∀ md h n s, L.pkeySign sk (.pss md md true) h n = (1, s) →
    L.pkeyVerify pk (.pss md md true) s h = 1
  eddsa : ∀ m n s, L.digestSign sk m n = (1, s) → L.digestVerify pk s m = 1

end TCose.Spec.Ossl
