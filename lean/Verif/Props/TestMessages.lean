import Verif.Lemmas.TestReplica
import Verif.Crypto.Toy

/-!
# C58: the test suite's own signer

The negative tests of the project sign with a modified copy of the signing
code (test/t_cose_make_test_messages.c). Those tests say something about the
library only in so far as the copy, with no test option set, does what the
library does.
-/

namespace TCose.Props
open TCose

/-- **C58, part that holds.** Without a test option, and for a context in which
no content type is set, which does not use EdDSA, and which uses short-circuit
signatures only without a key id and with an ECDSA algorithm, the copy succeeds
exactly when `t_cose_sign1_sign` does and returns the same octets: for every
build, adapter, key, key id, payload and buffer, and whatever the `protected
parameters` field held before.

Missing from the full statement (it is false, see `C58_content_type_dropped`,
`C58_kid_replaced`, `C58_short_circuit_ps`, `C58_eddsa_refused`): the other
contexts. -/
theorem C58_replica_partial (cfg : Config) (C : Crypto) (hfit : Spec.SignFits C) (me : SignCtx)
    (hct : me.contentTypeUint = Spec.noContentType ∧ me.contentTypeTstr = none)
    (hed : me.alg ≠ algEDDSA)
    (hsc : Spec.Opt.shortCircuit me.flags = true →
      me.kid.bytes = [] ∧ (me.alg = algES256 ∨ me.alg = algES384 ∨ me.alg = algES512))
    (payload : UB) (hpay : payload.wf) (prot0 : UB) (m : Bytes) (r : UB) :
    (TestMsg.sign cfg C me prot0 0 payload m).1 = .ok r ↔
      (sign1Sign cfg C me payload (.buf m)).1 = .ok r := by
  have hctn : ctArg cfg me = .none := by
    have hn : me.contentTypeUint = emptyContentType := hct.1
    unfold ctArg; rw [hn, hct.2]; simp
  by_cases hal : sigAlgSupported cfg me.alg = true
  case neg =>
    have hh : hashAlgOfSigAlg cfg me.alg = algNone := by
      refine Classical.byContradiction fun h => ?_
      exact hal ((hash_supported cfg me.alg).mp h).1
    have h1 : (TestMsg.sign cfg C me prot0 0 payload m).1 = .error .unsupportedSigningAlg := by
      simp [TestMsg.sign, TestMsg.encodeParameters, hh]
    have h2 : (sign1Sign cfg C me payload (.buf m)).1 = .error .unsupportedSigningAlg :=
      sign_error_pre (by rw [params_unsupported (by simpa using hal)])
    rw [h1, h2]
  by_cases hdis : hasFlag me.flags optShortCircuit = true ∧ cfg.disableShortCircuit = true
  · have hh : hashAlgOfSigAlg cfg me.alg ≠ algNone := (hash_supported cfg me.alg).mpr ⟨hal, hed⟩
    have h1 : (TestMsg.sign cfg C me prot0 0 payload m).1 = .error .shortCircuitSigDisabled := by
      simp [TestMsg.sign, TestMsg.encodeParameters, hh, hdis.1, hdis.2]
    have h2 : (sign1Sign cfg C me payload (.buf m)).1 = .error .shortCircuitSigDisabled :=
      sign_error_pre (params_scDisabled hal hdis.1 hdis.2)
    rw [h1, h2]
  have hh : hashAlgOfSigAlg cfg me.alg ≠ algNone := (hash_supported cfg me.alg).mpr ⟨hal, hed⟩
  have hpre : SignPre cfg me := ⟨hal, hdis, by rw [hctn]; simp⟩
  have hprot : UB.data (protMap me.alg)
      = if hasFlag 0 TestMsg.noProtected then prot0 else TestMsg.encodeProtected 0 me.alg := by
    rw [TestMsg.hasFlag_zero, TestMsg.encodeProtected_zero]; rfl
  have hkid : TestMsg.kidOf me = (kidArg me).bytes := by
    unfold TestMsg.kidOf kidArg
    by_cases hs : hasFlag me.flags optShortCircuit = true
    · have hke := (hsc hs).1
      rw [if_pos hs, if_pos ⟨hs, by rw [isNullOrEmpty_iff, hke]; rfl⟩]
      rfl
    · rw [if_neg hs, if_neg (fun h => hs h.1)]
  have hhdr : TestMsg.hdrI me (UB.data (protMap me.alg)).bytes 0
      = ⟨tagPart me ++ hdrBytes cfg me, none, [⟨.arr, (tagPart me).length, 2⟩]⟩ := by
    show TestMsg.hdrI me (protMap me.alg) 0 = _
    rw [TestMsg.hdrI_zero, hkid, hdrBytes, hctn]
  have hsrc := UB.wf_src hpay false
  rcases Nat.lt_or_ge (tagPart me ++ hdrBytes cfg me).length Enc.maxStart with hH | hH
  · rw [sign1Sign_iff hfit hpre hed hsrc m hH r,
      TestMsg.sign_iff (fun _ _ _ => TestMsg.signature_fits hfit) hsrc hh hdis hprot (by simpa [TestMsg.hasFlag_zero] using hhdr)
        (by omega) hH r]
    have hp : tagPart me ++ hdrBytes cfg me ++ bstrBytes payload.bytes
        = preSig cfg me false payload.bytes := by simp [preSig, payPart]
    have hf : ∀ s, TestMsg.fin 0 (tagPart me ++ hdrBytes cfg me) (tagPart me).length 2
        payload.bytes s = msgBytes cfg me false payload.bytes s := by
      intro s
      simp [TestMsg.fin, TestMsg.hasFlag_zero, msgBytes, payPart]
    have hsig : ∀ hash n, TestMsg.signature cfg C me hash n = libSignature C me hash n := by
      intro hash n
      unfold TestMsg.signature libSignature
      by_cases hs : hasFlag me.flags optShortCircuit = true
      · rw [if_neg (by simp [hs]), if_neg (fun h => hdis ⟨hs, h⟩), if_pos hs]
        unfold TestMsg.scSign TCose.scSign scSigSize
        simp only []
        rw [if_neg (by rcases (hsc hs).2 with h | h | h <;> rw [h] <;> decide)]
        rfl
      · rw [if_pos hs, if_neg hs]
    simp only [hp, hf, hsig]
  · obtain ⟨x, hx⟩ := TestMsg.sign_hdr_big (C := C) (m := m) hsrc hh hdis hprot (by decide) hhdr (by omega) hH
    obtain ⟨y, hy⟩ := sign_big (C := C) (aad := .nil) (out := .buf m) hpre hsrc hH
    unfold sign1Sign
    rw [hx, hy]
    simp

/-- A context with a key id. -/
def replicaCtx (flags : Nat) (alg : Int) (kid : Bytes) : SignCtx :=
  { SignCtx.init flags alg with kid := .data kid }

/-- The two signers on one context, a three-octet payload and a buffer of 200
octets. -/
def replicaLib (me : SignCtx) : Except Err UB :=
  (sign1Sign Config.full toyCrypto me (.data [1, 2, 3]) (.buf (List.replicate 200 0))).1
def replicaTest (me : SignCtx) : Except Err UB :=
  (TestMsg.sign Config.full toyCrypto me .nil 0 (.data [1, 2, 3]) (List.replicate 200 0)).1

/-- Both succeed, with a key id and regular signatures, and with short-circuit
signatures and no key id. -/
example : replicaLib (replicaCtx 0 algES256 [0x31, 0x31])
      = replicaTest (replicaCtx 0 algES256 [0x31, 0x31]) ∧
    (replicaLib (replicaCtx 0 algES256 [0x31, 0x31])).toBool = true ∧
    replicaLib (replicaCtx 1 algES384 []) = replicaTest (replicaCtx 1 algES384 []) ∧
    (replicaLib (replicaCtx 1 algES384 [])).toBool = true := by
  decide +kernel

/-- The full claim of C58 for one build and adapter: the copy, with no test
option, is the library's signer. -/
abbrev C58_claim (cfg : Config) (C : Crypto) : Prop :=
  ∀ (me : SignCtx) (payload prot0 : UB) (m : Bytes) (r : UB), payload.wf →
    ((TestMsg.sign cfg C me prot0 0 payload m).1 = .ok r ↔
      (sign1Sign cfg C me payload (.buf m)).1 = .ok r)

/-- A content type set by the caller is missing from what the copy makes. -/
theorem C58_content_type_dropped :
    let me := { SignCtx.init 0 algES256 with contentTypeUint := 7 }
    (replicaTest me).toBool = true ∧ (replicaLib me).toBool = true ∧
      replicaTest me = replicaTest (SignCtx.init 0 algES256) ∧ replicaTest me ≠ replicaLib me := by
  decide +kernel

/-- With short-circuit signatures the copy ignores the caller's key id. -/
theorem C58_kid_replaced :
    (replicaTest (replicaCtx 1 algES256 [0x31])).toBool = true ∧
      (replicaLib (replicaCtx 1 algES256 [0x31])).toBool = true ∧
      replicaTest (replicaCtx 1 algES256 [0x31]) = replicaTest (replicaCtx 1 algES256 []) ∧
      replicaTest (replicaCtx 1 algES256 [0x31]) ≠ replicaLib (replicaCtx 1 algES256 [0x31]) := by
  decide +kernel

/-- Short-circuit signing with an RSA algorithm: the copy tests the signature
size and refuses, the library returns an empty signature. -/
theorem C58_short_circuit_ps :
    replicaTest (replicaCtx 1 algPS256 []) = .error .unsupportedSigningAlg ∧
      (replicaLib (replicaCtx 1 algPS256 [])).toBool = true := by
  decide +kernel

/-- EdDSA: the copy refuses, the library signs. -/
theorem C58_eddsa_refused :
    let me := { SignCtx.init 0 algEDDSA with aux := .buf (List.replicate 200 0) }
    replicaTest me = .error .unsupportedSigningAlg ∧ (replicaLib me).toBool = true := by
  decide +kernel

/-- **C58 is false in full.** -/
theorem C58_claim_false : ¬ C58_claim Config.full toyCrypto := by
  intro h
  have h2 := C58_short_circuit_ps.2
  have h1 := C58_short_circuit_ps.1
  cases hr : replicaLib (replicaCtx 1 algPS256 []) with
  | error x => rw [hr] at h2; cases h2
  | ok r =>
    have := (h (replicaCtx 1 algPS256 []) (.data [1, 2, 3]) .nil (List.replicate 200 0) r rfl).mpr hr
    exact absurd (h1.symm.trans this) (by simp)

end TCose.Props
