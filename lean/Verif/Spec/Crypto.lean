import Verif.Basic

/-!
# Specification: what a caller may assume of a crypto adapter

Contracts taken from the documentation in src/t_cose_crypto.h.  Theorems that
need one take it as an explicit hypothesis; `Verif.Crypto.Toy` provides an
adapter meeting all of them, so none is vacuous.
-/

namespace TCose.Spec

/-- The three hash functions compute the digest `D alg` of the concatenation of
everything fed in (src/t_cose_crypto.h:505-600). A NULL pointer contributes
nothing. -/
def StreamHash (C : Crypto) (D : Int → Bytes → Bytes) : Prop :=
  ∃ Abs : C.HashCtx → Int → Bytes → Prop,
    (∀ alg h, C.hashStart alg = .ok h → Abs h alg []) ∧
    (∀ h alg b u, Abs h alg b → Abs (C.hashUpdate h (.data u)) alg (b ++ u)) ∧
    (∀ h alg b n, Abs h alg b → Abs (C.hashUpdate h (.null n)) alg b) ∧
    (∀ h alg b n r, Abs h alg b → C.hashFinish h n = .ok r → r = D alg b)

/-- Hashing with algorithm `ha` into a buffer of `n` octets works, and computes the
digest `D` of the concatenation of everything fed in. -/
def HashesAs (C : Crypto) (ha : Int) (n : Nat) (D : Bytes → Bytes) : Prop :=
  ∃ Abs : C.HashCtx → Bytes → Prop,
    (∃ h, C.hashStart ha = .ok h ∧ Abs h []) ∧
    (∀ h b u, Abs h b → Abs (C.hashUpdate h (.data u)) (b ++ u)) ∧
    (∀ h b k, Abs h b → Abs (C.hashUpdate h (.null k)) b) ∧
    (∀ h b, Abs h b → C.hashFinish h n = .ok (D b))

/-- `HashesAs` for pieces of at most `N` octets. -/
def HashesUpTo (N : Nat) (C : Crypto) (ha : Int) (n : Nat) (D : Bytes → Bytes) : Prop :=
  ∃ Abs : C.HashCtx → Bytes → Prop,
    (∃ h, C.hashStart ha = .ok h ∧ Abs h []) ∧
    (∀ h b u, u.length ≤ N → Abs h b → Abs (C.hashUpdate h (.data u)) (b ++ u)) ∧
    (∀ h b k, Abs h b → Abs (C.hashUpdate h (.null k)) b) ∧
    (∀ h b, Abs h b → C.hashFinish h n = .ok (D b))

/-- The pieces that a Sig_structure is hashed in have at most `N` octets: the three
parts, and heads and context string, which have up to 12. -/
def PiecesUpTo (N : Nat) (prot aad payload : Bytes) : Prop :=
  12 ≤ N ∧ prot.length ≤ N ∧ aad.length ≤ N ∧ payload.length ≤ N

/-- A digest has at least one octet and fits the buffer it was given
(src/t_cose_crypto.h:566-600). -/
def HashFits (C : Crypto) : Prop :=
  ∀ h n r, C.hashFinish h n = .ok r → r ≠ [] ∧ r.length ≤ n

/-- A signature never exceeds the buffer it was given
(src/t_cose_crypto.h:168-220, 300-334). -/
structure SignFits (C : Crypto) : Prop where
  sign : ∀ alg key h n s, C.sign alg key h n = .ok s → s.length ≤ n
  eddsa : ∀ key tbs n s, C.signEddsa key tbs n = .ok s → s.length ≤ n

/-- `t_cose_crypto_sig_size` is exact (src/t_cose_crypto.h:137-162). -/
structure SigSizeExact (C : Crypto) : Prop where
  sign : ∀ alg key h n s, C.sign alg key h n = .ok s → C.sigSize alg key = .ok s.length
  eddsa : ∀ key tbs n s, C.signEddsa key tbs n = .ok s → C.sigSize algEDDSA key = .ok s.length

/-- What the private key signs, the public key verifies
(`sk` signs, `pk` verifies). -/
structure SignVerify (C : Crypto) (sk pk : Key) : Prop where
  sign : ∀ alg h n s kid, C.sign alg sk h n = .ok s → C.verify alg pk kid h s = .ok ()
  eddsa : ∀ tbs n s kid, C.signEddsa sk tbs n = .ok s → C.verifyEddsa pk kid tbs s = .ok ()

end TCose.Spec
