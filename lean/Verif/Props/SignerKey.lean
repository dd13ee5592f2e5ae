import Verif.Spec.SignerKey
import Verif.Props.OtherKey

/-!
# C111: the key of the signer
-/

namespace TCose.Props
open TCose Spec

variable {cfg : Config} {C : Crypto} {me : SignCtx} {key : Key}

/-- The key plays no part in the first step. -/
theorem encodeParameters_key (det : Bool) (e : Enc) :
    encodeParametersInternal cfg { me with key := key } det e =
      ((encodeParametersInternal cfg me det e).1, { (encodeParametersInternal cfg me det e).2.1 with key := key },
        (encodeParametersInternal cfg me det e).2.2) ∧
    (encodeParametersInternal cfg me det e).2.1.alg = me.alg ∧ (encodeParametersInternal cfg me det e).2.1.key = me.key ∧
    (encodeParametersInternal cfg me det e).2.1.flags = me.flags := by
  unfold encodeParametersInternal addUnprotected
  dsimp only
  split
  · exact ⟨rfl, rfl, rfl, rfl⟩
  split
  · exact ⟨rfl, rfl, rfl, rfl⟩
  by_cases h1 : cfg.disableContentType = true
  · simp only [if_pos h1]
    exact ⟨trivial, trivial, trivial, trivial⟩
  simp only [if_neg h1]
  by_cases h2 : me.contentTypeUint ≠ emptyContentType ∧ me.contentTypeTstr ≠ none
  · simp only [if_pos h2]
    exact ⟨trivial, trivial, trivial, trivial⟩
  · simp only [if_neg h2]
    exact ⟨trivial, trivial, trivial, trivial⟩

theorem signDispatch_key (h : (cfg.disableShortCircuit = false ∧ Opt.shortCircuit me.flags = true) ∨ KeysAlike C me.alg me.key key)
    (prot aad payload : UB) (place : Enc.Place) :
    signDispatch cfg C { me with key := key } prot aad payload place =
      ((signDispatch cfg C me prot aad payload place).1,
        { (signDispatch cfg C me prot aad payload place).2.1 with key := key },
        (signDispatch cfg C me prot aad payload place).2.2) := by
  unfold signDispatch
  dsimp only
  by_cases h1 : (!cfg.disableShortCircuit && hasFlag me.flags optShortCircuit) = true
  · simp only [if_pos h1]
    rfl
  simp only [if_neg h1]
  have hk : KeysAlike C me.alg me.key key := by
    rcases h with h | h
    · refine absurd ?_ h1
      rw [h.1]
      exact h.2
    · exact h
  by_cases h2 : (!cfg.disableEDDSA && me.alg == algEDDSA) = true
  · simp only [if_pos h2]
    unfold signEddsa
    dsimp only
    split
    · rfl
    · rfl
    · cases place with
      | null => simp only [hk.size]
      | room n =>
        simp only [hk.eddsa]
        split <;> rfl
  · simp only [if_neg h2]
    unfold signDefault
    dsimp only
    cases createTbsHash cfg C me.alg prot aad payload (maxHashSize cfg) with
    | error x => rfl
    | ok hash =>
      cases place with
      | null => simp only [hk.size]
      | room n => simp only [hk.sign]

/-- **C111.** The second step with another key that the adapter treats alike, or for a short-circuit signature: the same
result, the same octets, and the same context but for the key. -/
theorem C111_second_step (h : (cfg.disableShortCircuit = false ∧ Opt.shortCircuit me.flags = true) ∨ KeysAlike C me.alg me.key key)
    (aad payload : UB) (e : Enc) :
    encodeSignatureInternal cfg C { me with key := key } aad payload e =
      ((encodeSignatureInternal cfg C me aad payload e).1,
        { (encodeSignatureInternal cfg C me aad payload e).2.1 with key := key },
        (encodeSignatureInternal cfg C me aad payload e).2.2) := by
  unfold encodeSignatureInternal
  dsimp only
  split
  · rfl
  · rfl
  rw [signDispatch_key h]
  generalize signDispatch cfg C me _ aad _ _ = r
  obtain ⟨r, me1, ub⟩ := r
  cases r with
  | error x => rfl
  | ok s => rfl

/-- **C111.** Signing with another key that the adapter treats alike, or with a short-circuit signature: the same result,
the same octets, and the same context but for the key. -/
theorem C111_signer_key (h : (cfg.disableShortCircuit = false ∧ Opt.shortCircuit me.flags = true) ∨ KeysAlike C me.alg me.key key)
    (det : Bool) (payload aad : UB) (out : Mem) :
    let before := signAadInternal cfg C me det payload aad out
    signAadInternal cfg C { me with key := key } det payload aad out =
      (before.1, { before.2.1 with key := key }, before.2.2) := by
  intro before
  show _ = ((signAadInternal cfg C me det payload aad out).1, { (signAadInternal cfg C me det payload aad out).2.1 with key := key }, (signAadInternal cfg C me det payload aad out).2.2)
  unfold signAadInternal
  obtain ⟨e1, ha, hk, hf⟩ := encodeParameters_key (cfg := cfg) (me := me) (key := key) det (Enc.init out)
  rw [e1]
  generalize encodeParametersInternal cfg me det (Enc.init out) = r at ha hk hf ⊢
  obtain ⟨r, me1, e⟩ := r
  simp only at ha hk hf
  cases r with
  | error x => rfl
  | ok u =>
    dsimp only
    rw [C111_second_step (me := me1) (key := key) (by rw [ha, hk, hf]; exact h)]
    generalize encodeSignatureInternal cfg C me1 aad (if det = true then payload else .nil)
      (if det = true then e.addNull else e.addEncoded payload) = q
    obtain ⟨q, me2, e2⟩ := q
    cases q with
    | error x => rfl
    | ok v =>
      dsimp only
      split
      · rfl
      · rfl
      · split <;> rfl

/-- An adapter for which the signature depends on the key. -/
def keyedSigner : Crypto :=
  { toyCrypto with sign := fun _ key h n => if n < 64 then .error .sigBufferSize else .ok (toySig (UInt8.ofNat key.k :: h)) }

/-- Keys that the adapter treats alike, and a short-circuit signature. -/
example : KeysAlike keyedSigner (-7) ⟨.openssl, 1⟩ ⟨.psa, 257⟩ ∧ Opt.shortCircuit 1 = true ∧
    Config.full.disableShortCircuit = false :=
  ⟨⟨rfl, fun _ _ => rfl, fun _ _ => rfl⟩, by decide, rfl⟩

/-- With a key that it does not treat alike the message is another, unless the signature is a short-circuit one. -/
example :
    let s := fun flags k => (sign1Sign Config.full keyedSigner { exCtx with flags := flags, key := ⟨.openssl, k⟩ }
      (.data [1, 2, 3]) (.buf (List.replicate 200 0))).1
    s 0 1 = s 0 257 ∧ s 0 1 ≠ s 0 2 ∧ s 1 1 = s 1 2 ∧ (s 0 1).isOk = true ∧ (s 1 1).isOk = true := by
  decide +kernel

end TCose.Props
