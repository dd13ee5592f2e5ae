import Verif.Lemmas.ShortCircuit
import Verif.Crypto.Toy

/-!
# C12, C13: short-circuit signatures
-/

namespace TCose.Props
open TCose

/-- **C12 (verification rule).** Accepted exactly when the signature begins with
the digest; every other outcome is `SIG_VERIFY`. -/
theorem C12_verify_iff (hash sig : Bytes) :
    (scVerify hash sig = .ok () ↔ hash <+: sig) ∧
      (¬ hash <+: sig → scVerify hash sig = .error .sigVerify) := by
  have key : scVerify hash sig = if hash <+: sig then .ok () else .error .sigVerify := by
    unfold scVerify
    by_cases h : hash.length > sig.length
    · rw [if_pos h, if_neg]
      intro hp; have := hp.length_le; omega
    · rw [if_neg h]
      by_cases h2 : sig.take hash.length = hash
      · rw [if_pos h2, if_pos]
        exact List.prefix_iff_eq_take.mpr h2.symm
      · rw [if_neg h2, if_neg]
        intro hp; exact h2 (List.prefix_iff_eq_take.mp hp).symm
  rw [key]
  by_cases h : hash <+: sig <;> simp [h]

example : scVerify [1, 2] [1, 2, 3] = .ok () ∧ scVerify [1, 2] [1] = .error .sigVerify := by
  decide

/-- Size of an ECDSA signature (RFC 8152 section 8.1: twice the key size). -/
def ecdsaSize (alg : Int) : Option Nat :=
  if alg = algES256 then some 64
  else if alg = algES384 then some 96
  else if alg = algES512 then some 132
  else none

theorem scSigSize_ecdsa {alg : Int} {k : Nat} (h : ecdsaSize alg = some k) :
    scSigSize alg = .ok k := by
  unfold ecdsaSize at h
  unfold scSigSize
  by_cases h1 : alg = algES256
  · rw [if_pos h1] at h ⊢; injection h with h; rw [h]
  · rw [if_neg h1] at h ⊢
    by_cases h2 : alg = algES384
    · rw [if_pos h2] at h ⊢; injection h with h; rw [h]
    · rw [if_neg h2] at h ⊢
      by_cases h3 : alg = algES512
      · rw [if_pos h3] at h ⊢; injection h with h; rw [h]
      · rw [if_neg h3] at h; cases h

/-- **C12 (signing rule).** For the ECDSA algorithms, any non-empty digest and
enough room, the signature has the ECDSA size and is the digest repeated; with
less room the call is refused. -/
theorem C12_sign_repeats (alg : Int) (k : Nat) (hk : ecdsaSize alg = some k) (hash : Bytes)
    (hh : hash ≠ []) (room : Nat) :
    (k ≤ room → ∃ s, scSign alg hash room = .ok s ∧ s.length = k ∧
        ∀ j, j < k → s[j]? = hash[j % hash.length]?) ∧
    (room < k → scSign alg hash room = .error .sigBufferSize) := by
  have hsz := scSigSize_ecdsa hk
  constructor
  · intro hr
    unfold scSign
    rw [hsz]
    simp only []
    rw [if_neg (by omega)]
    obtain ⟨b, hb⟩ := scLoop_some hh k k 0 (List.replicate k 0) (by omega)
    rw [hb]
    have hl := scLoop_length (by simp) hb
    refine ⟨_, rfl, by simp [hl], ?_⟩
    intro j hj
    rw [List.getElem?_take, if_pos hj]
    exact scLoop_get hh (by simp) (by simp) (fun j h _ => absurd h (by omega)) hb j hj
  · intro hr
    unfold scSign
    rw [hsz]
    simp only []
    rw [if_pos hr]

example : ecdsaSize algES384 = some 96 ∧
    scSign algES256 [1, 2, 3] 64 = .ok ((List.replicate 21 [1, 2, 3]).flatten ++ [1]) := by
  decide +kernel

/-- **C12 (what is signed verifies).** -/
theorem C12_sign_verify (alg : Int) (k : Nat) (hk : ecdsaSize alg = some k) (hash sig : Bytes)
    (hh : hash ≠ []) (hl : hash.length ≤ k) (room : Nat) (h : scSign alg hash room = .ok sig) :
    scVerify hash sig = .ok () := by
  rw [(C12_verify_iff hash sig).1]
  obtain ⟨h1, h2⟩ := C12_sign_repeats alg k hk hash hh room
  by_cases hr : k ≤ room
  · obtain ⟨s, hs, hlen, hget⟩ := h1 hr
    rw [h] at hs; injection hs with hs; subst hs
    rw [List.prefix_iff_eq_take]
    apply List.ext_getElem?
    intro j
    rw [List.getElem?_take]
    by_cases hj : j < hash.length
    · rw [if_pos hj, hget j (by omega), Nat.mod_eq_of_lt hj]
    · rw [if_neg hj, List.getElem?_eq_none (by omega)]
  · rw [h2 (by omega)] at h; cases h

example : ∃ s, scSign algES512 (List.replicate 64 7) 200 = .ok s ∧
    scVerify (List.replicate 64 7) s = .ok () := ⟨List.replicate 132 7, by decide +kernel⟩

/-- The full claim of C13: an algorithm with no defined size is refused. -/
def C13_claim : Prop :=
  ∀ (alg : Int) (hash : Bytes) (room : Nat), ecdsaSize alg = none →
    ∃ x, scSign alg hash room = .error x

/-- **C13 is false of the code**: the size function tests the pointer instead of
the size, so an algorithm without a size gives an empty signature, whatever the
digest and the room. -/
theorem C13_violated_empty_signature (alg : Int) (h : ecdsaSize alg = none) (hash : Bytes)
    (room : Nat) : scSign alg hash room = .ok [] := by
  have hs : scSigSize alg = .ok 0 := by
    unfold ecdsaSize at h
    unfold scSigSize
    by_cases h1 : alg = algES256
    · rw [if_pos h1] at h; cases h
    · rw [if_neg h1] at h ⊢
      by_cases h2 : alg = algES384
      · rw [if_pos h2] at h; cases h
      · rw [if_neg h2] at h ⊢
        by_cases h3 : alg = algES512
        · rw [if_pos h3] at h; cases h
        · rw [if_neg h3]
  unfold scSign
  rw [hs]
  simp only []
  rw [if_neg (by omega)]
  unfold scLoop
  rw [if_neg (by omega)]
  rfl

example : ecdsaSize algPS256 = none := by decide

theorem C13_claim_false : ¬ C13_claim := by
  intro h
  obtain ⟨x, hx⟩ := h algPS256 [1] 0 (by decide)
  rw [C13_violated_empty_signature algPS256 (by decide)] at hx
  cases hx

/-- **C13, consequence.** The empty signature never verifies (digests are never
empty): signing reports success for a message every verifier refuses. -/
theorem C13_empty_signature_rejected (hash : Bytes) (hh : hash ≠ []) :
    scVerify hash [] = .error .sigVerify := by
  refine (C12_verify_iff hash []).2 fun hp => hh ?_
  exact List.prefix_nil.mp hp

example : scVerify [1, 2] [] = .error .sigVerify := by decide

/-- **C13_partial.** What holds: algorithms with no hash (EdDSA, unknown ids) are
refused before the signature procedure, for every build and adapter. Missing:
the RSASSA-PSS algorithms, see `C13_violated_empty_signature`. -/
theorem C13_no_hash_partial (cfg : Config) (C : Crypto) (me : SignCtx) (prot aad payload : UB)
    (place : Enc.Place) (h : Spec.hashOf me.alg = none) :
    signShortCircuit cfg C me prot aad payload place = .error .unsupportedSigningAlg := by
  unfold signShortCircuit
  have : createTbsHash cfg C me.alg prot aad payload (maxHashSize cfg)
      = .error .unsupportedSigningAlg := by
    rw [createTbsHash_eq, if_pos]
    refine Classical.byContradiction fun hc => ?_
    rw [hashAlg_hashOf hc] at h
    cases h
  rw [this]

example : Spec.hashOf (SignCtx.init 1 algEDDSA).alg = none := by decide

/-- The whole API call of the C13 defect: short-circuit signing with PS256
succeeds with a zero-length signature. -/
theorem C13_api_witness :
    (sign1Sign Config.full toyCrypto (SignCtx.init 1 algPS256) (.data [0x68, 0x69])
      (.buf (List.replicate 100 0))).1
    = .ok (.data (Spec.coseSign1 true algPS256 (some Spec.scKid) .none
        (some [0x68, 0x69]) []).enc) := by
  decide +kernel

end TCose.Props
