import Verif.Props.TestMessages

/-!
# C58: what the test suite's signer makes, for every context
-/

namespace TCose.Props
open TCose

/-- A context without content type, and without key id if it uses short-circuit signatures. -/
def asCopied (me : SignCtx) : SignCtx :=
  { me with
    contentTypeUint := Spec.noContentType, contentTypeTstr := none,
    kid := if Spec.Opt.shortCircuit me.flags then .nil else me.kid }

theorem copied_same (cfg : Config) (C : Crypto) (me : SignCtx) (prot0 payload : UB) (m : Bytes) :
    TestMsg.sign cfg C (asCopied me) prot0 0 payload m = TestMsg.sign cfg C me prot0 0 payload m := by
  have h1 : ∀ e, TestMsg.encodeParameters cfg (asCopied me) prot0 0 e = TestMsg.encodeParameters cfg me prot0 0 e := by
    intro e
    unfold TestMsg.encodeParameters
    have hk : (if hasFlag (asCopied me).flags optShortCircuit then shortCircuitKid else (asCopied me).kid.bytes) =
        if hasFlag me.flags optShortCircuit then shortCircuitKid else me.kid.bytes := by
      show (if hasFlag me.flags optShortCircuit then shortCircuitKid else (asCopied me).kid.bytes) = _
      by_cases hs : hasFlag me.flags optShortCircuit = true
      · rw [if_pos hs, if_pos hs]
      · rw [if_neg hs, if_neg hs]
        unfold asCopied
        simp only
        rw [if_neg (by rw [opt_shortCircuit]; exact hs)]
    simp only [hk]
    rfl
  have h2 : ∀ prot e, TestMsg.outputSignature cfg C (asCopied me) prot 0 e = TestMsg.outputSignature cfg C me prot 0 e :=
    fun _ _ => rfl
  unfold TestMsg.sign
  simp only [h1, h2]

/-- **C58 (exactly).** Without a test option the copy makes, for every context, what `t_cose_sign1_sign` makes for the
context without its content types, and without its key id if signatures are short-circuit; and nothing for EdDSA and
for short-circuit signatures with another algorithm than ECDSA. -/
theorem C58_exact (cfg : Config) (C : Crypto) (hfit : Spec.SignFits C) (me : SignCtx)
    (payload : UB) (hpay : payload.wf) (prot0 : UB) (m : Bytes) (r : UB) :
    (TestMsg.sign cfg C me prot0 0 payload m).1 = .ok r ↔
      me.alg ≠ -8 ∧ (Spec.Opt.shortCircuit me.flags = true → me.alg = -7 ∨ me.alg = -35 ∨ me.alg = -36) ∧
        (sign1Sign cfg C (asCopied me) payload (.buf m)).1 = .ok r := by
  by_cases hed : me.alg = -8
  · refine ⟨fun h => ?_, fun h => absurd hed h.1⟩
    have : hashAlgOfSigAlg cfg me.alg = algNone := by
      rw [hed]; unfold hashAlgOfSigAlg
      simp [algES256, algES384, algES512, algPS256, algPS384, algPS512]
    rw [show (TestMsg.sign cfg C me prot0 0 payload m).1 = .error .unsupportedSigningAlg by
      simp [TestMsg.sign, TestMsg.encodeParameters, this]] at h
    cases h
  by_cases hsc : Spec.Opt.shortCircuit me.flags = true → me.alg = -7 ∨ me.alg = -35 ∨ me.alg = -36
  · rw [← copied_same, C58_replica_partial cfg C hfit (asCopied me) ⟨rfl, rfl⟩ hed (fun (hs : Spec.Opt.shortCircuit me.flags = true) => ⟨by
      unfold asCopied
      simp only
      rw [if_pos hs]
      rfl, hsc hs⟩) payload hpay prot0 m r]
    exact ⟨fun h => ⟨hed, hsc, h⟩, fun h => h.2.2⟩
  · refine ⟨fun h => ?_, fun h => absurd h.2.1 hsc⟩
    exfalso
    rw [Classical.not_imp] at hsc
    obtain ⟨hs, hne⟩ := hsc
    have hs' : hasFlag me.flags optShortCircuit = true := by rw [← opt_shortCircuit]; exact hs
    have hno : ∀ hash n, ∃ x, TestMsg.signature cfg C me hash n = .error x := by
      intro hash n
      unfold TestMsg.signature
      rw [if_neg (by simp [hs'])]
      split
      · exact ⟨_, rfl⟩
      · rw [not_or, not_or] at hne
        have h7 : ¬ me.alg = algES256 := hne.1
        have h35 : ¬ me.alg = algES384 := hne.2.1
        have h36 : ¬ me.alg = algES512 := hne.2.2
        unfold TestMsg.scSign
        simp only [if_neg h7, if_neg h35, if_neg h36, if_true]
        exact ⟨_, rfl⟩
    unfold TestMsg.sign at h
    split at h
    · cases h
    · split at h
      · cases h
      · rename_i ho
        unfold TestMsg.outputSignature at ho
        simp only at ho
        split at ho
        · cases ho
        · cases ho
        · split at ho
          · cases ho
          · rename_i hash _
            obtain ⟨x, hx⟩ := hno hash (TestMsg.roomOf (Enc.openBytes _).2)
            rw [hx] at ho
            cases ho

/-- A content type and a key id that are left out; a context for which nothing is made. -/
example :
    let me := { replicaCtx 1 algES384 [0x31] with contentTypeUint := 7 }
    replicaTest me = replicaLib (asCopied me) ∧ (replicaTest me).toBool = true ∧ replicaTest me ≠ replicaLib me ∧
    (replicaTest (replicaCtx 1 algPS256 [])).toBool = false ∧
    (replicaLib (asCopied (replicaCtx 1 algPS256 []))).toBool = true := by
  decide +kernel

end TCose.Props
