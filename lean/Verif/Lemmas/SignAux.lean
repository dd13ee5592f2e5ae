import Verif.Lemmas.SignSize
import Verif.Lemmas.SignMain

/-!
# Helper lemmas: EdDSA signing and the auxiliary buffer
-/

namespace TCose
open Enc (PRef Place maxStart)

theorem seen_len (nul : Bool) (b : Bytes) : (seen nul b).len = b.length := by
  unfold seen
  split <;> rfl

theorem signDispatch_eddsa {cfg : Config} {C : Crypto} {me : SignCtx} {aad : UB} {det nul : Bool}
    {w : Bytes} {place : Place} (hcfg : cfg.disableEDDSA = false) (halg : me.alg = algEDDSA)
    (hsc : hasFlag me.flags optShortCircuit = false) (ha : aad.wf)
    (hx : nul = true → me.aux.isNull = true) (prot : Bytes) :
    signDispatch cfg C me (seen nul prot) aad (paySeen det nul w) place =
      if me.aux.cap < (Spec.sigStructure prot aad.bytes w).length then
        (.error .auxiliaryBufferSize, me, false)
      else
        (match place with
          | .null => (C.sigSize me.alg me.key).map UB.null
          | .room k => if me.aux.isNull then .error .needAuxiliaryBuffer
            else (C.signEddsa me.key (Spec.sigStructure prot aad.bytes w) k).map UB.data,
          { me with auxSize := (Spec.sigStructure prot aad.bytes w).length }, false) := by
  have hs : ∀ b, Src me.aux.isNull (seen nul b) b := by
    intro b
    cases nul with
    | false => exact .inl rfl
    | true => exact .inr ⟨.inl (hx rfl), rfl⟩
  have hw : Src me.aux.isNull (paySeen det nul w) w := by
    cases det with
    | true => exact .inl rfl
    | false => exact hs w
  unfold signDispatch
  rw [if_neg (by simp [hsc]), if_pos (by simp [hcfg, halg])]
  unfold signEddsa
  rw [createTbs_run me.aux (hs prot) (UB.wf_src ha _) hw]
  by_cases hc : me.aux.cap < (Spec.sigStructure prot aad.bytes w).length
  · rw [if_pos hc, if_pos hc]
  · rw [if_neg hc, if_neg hc]
    simp only [seen_len]
    cases place with
    | null => rfl
    | room k =>
      simp only
      by_cases hn : me.aux.isNull = true
      · rw [if_pos hn, if_pos hn]
      · rw [if_neg hn, if_neg hn]
        have : (seen me.aux.isNull (Spec.sigStructure prot aad.bytes w)).bytes =
            Spec.sigStructure prot aad.bytes w := by
          rw [Bool.not_eq_true] at hn
          rw [hn]; rfl
        rw [this]

theorem signDispatch_auxSize {cfg : Config} {C : Crypto} {me : SignCtx} {p a w : UB} {place : Place}
    (h : me.alg ≠ algEDDSA ∨ cfg.disableEDDSA = true ∨
      (hasFlag me.flags optShortCircuit = true ∧ cfg.disableShortCircuit = false)) :
    (signDispatch cfg C me p a w place).2.1 = me := by
  unfold signDispatch
  split
  · rfl
  · rename_i h1
    split
    · rename_i h2
      exfalso
      simp only [Bool.and_eq_true, Bool.not_eq_true', beq_iff_eq] at h1 h2
      rcases h with h | h | h
      · exact h h2.2
      · rw [h] at h2; exact absurd h2.1 (by simp)
      · exact h1 ⟨h.2, h.1⟩
    · rfl

theorem params_auxSize {cfg : Config} {me : SignCtx} {det : Bool} {e0 : Enc} :
    (encodeParametersInternal cfg me det e0).2.1.auxSize = me.auxSize ∧
    (encodeParametersInternal cfg me det e0).2.1.alg = me.alg ∧
    (encodeParametersInternal cfg me det e0).2.1.flags = me.flags := by
  unfold encodeParametersInternal
  split
  · exact ⟨rfl, rfl, rfl⟩
  · simp only
    split
    · exact ⟨rfl, rfl, rfl⟩
    · generalize addUnprotected _ _ _ _ = q
      obtain ⟨r, e⟩ := q
      cases r <;> exact ⟨rfl, rfl, rfl⟩

/-- No procedure changes the algorithm or the options. -/
theorem signDispatch_ctxN {cfg : Config} {C : Crypto} {me : SignCtx} {p a w : UB} {place : Place} :
    ∃ n, (signDispatch cfg C me p a w place).2.1 = { me with auxSize := n } := by
  unfold signDispatch
  split
  · exact ⟨_, rfl⟩
  · split
    · unfold signEddsa
      generalize createTbs p a w me.aux = q
      obtain ⟨r, b⟩ := q
      cases r with
      | error x => cases x <;> exact ⟨_, rfl⟩
      | ok t =>
        cases place with
        | null => exact ⟨_, rfl⟩
        | room n =>
          simp only
          split <;> exact ⟨_, rfl⟩
    · exact ⟨_, rfl⟩

theorem encSig_ctx {cfg : Config} {C : Crypto} {m : SignCtx} {aad pl : UB} {e2 : Enc} :
    ∃ n, (encodeSignatureInternal cfg C m aad pl e2).2.1 = { m with auxSize := n } := by
  unfold encodeSignatureInternal
  simp only
  split
  · exact ⟨_, rfl⟩
  · exact ⟨_, rfl⟩
  · obtain ⟨n, hd⟩ := signDispatch_ctxN (cfg := cfg) (C := C) (me := m)
      (p := ((closePayload pl e2).1.openBytes).1.deref m.protectedParams) (a := aad)
      (w := (closePayload pl e2).2) (place := ((closePayload pl e2).1.openBytes).2)
    generalize signDispatch cfg C m _ aad _ _ = q at hd ⊢
    obtain ⟨r, m2, b⟩ := q
    simp only at hd
    subst hd
    cases r <;> exact ⟨_, rfl⟩

/-- The signing procedure is the only step that changes the recorded size. -/
theorem encSig_auxSize {cfg : Config} {C : Crypto} {m : SignCtx} {aad pl : UB} {e2 : Enc}
    (h : m.alg ≠ algEDDSA ∨ cfg.disableEDDSA = true ∨
      (hasFlag m.flags optShortCircuit = true ∧ cfg.disableShortCircuit = false)) :
    (encodeSignatureInternal cfg C m aad pl e2).2.1.auxSize = m.auxSize := by
  unfold encodeSignatureInternal
  simp only
  split
  · rfl
  · rfl
  · have hd := signDispatch_auxSize (cfg := cfg) (C := C) (me := m)
      (p := ((closePayload pl e2).1.openBytes).1.deref m.protectedParams) (a := aad)
      (w := (closePayload pl e2).2) (place := ((closePayload pl e2).1.openBytes).2) h
    generalize signDispatch cfg C m _ aad _ _ = q at hd ⊢
    obtain ⟨r, m2, b⟩ := q
    simp only at hd
    subst hd
    cases r <;> rfl

theorem sign_auxSize {cfg : Config} {C : Crypto} {me : SignCtx} {det : Bool} {payload aad : UB}
    {out : Mem}
    (h : me.alg ≠ algEDDSA ∨ cfg.disableEDDSA = true ∨
      (hasFlag me.flags optShortCircuit = true ∧ cfg.disableShortCircuit = false)) :
    (signAadInternal cfg C me det payload aad out).2.1.auxSize = me.auxSize := by
  have hparm := params_auxSize (cfg := cfg) (me := me) (det := det) (e0 := Enc.init out)
  unfold signAadInternal
  generalize encodeParametersInternal cfg me det (Enc.init out) = q at hparm ⊢
  obtain ⟨r, m, e⟩ := q
  simp only at hparm
  obtain ⟨h1, h2, h3⟩ := hparm
  cases r with
  | error x => exact h1
  | ok u =>
    simp only
    generalize (if det then e.addNull else e.addEncoded payload) = e2
    generalize (if det then payload else .nil) = pl
    have henc := encSig_auxSize (cfg := cfg) (C := C) (m := m) (aad := aad) (pl := pl) (e2 := e2)
      (by rw [h2, h3]; exact h)
    rw [h1] at henc
    generalize encodeSignatureInternal cfg C m aad pl e2 = q at henc ⊢
    obtain ⟨r, m2, e3⟩ := q
    simp only at henc
    cases r with
    | error x => exact henc
    | ok u =>
      simp only
      split
      · exact henc
      · exact henc
      · split <;> exact henc

/-- A signing call changes nothing in the context but the two working fields. -/
theorem sign_ctx {cfg : Config} {C : Crypto} {me : SignCtx} {det : Bool} {payload aad : UB}
    {out : Mem} : ∃ pp n, (signAadInternal cfg C me det payload aad out).2.1 =
      { me with protectedParams := pp, auxSize := n } := by
  have hparm : ∃ pp, (encodeParametersInternal cfg me det (Enc.init out)).2.1 =
      { me with protectedParams := pp } := by
    unfold encodeParametersInternal
    split
    · exact ⟨_, rfl⟩
    · simp only
      split
      · exact ⟨_, rfl⟩
      · generalize addUnprotected _ _ _ _ = q
        obtain ⟨r, e⟩ := q
        cases r <;> exact ⟨_, rfl⟩
  unfold signAadInternal
  generalize encodeParametersInternal cfg me det (Enc.init out) = q at hparm ⊢
  obtain ⟨r, m, e⟩ := q
  obtain ⟨pp, h1⟩ := hparm
  simp only at h1
  subst h1
  cases r with
  | error x => exact ⟨_, _, rfl⟩
  | ok u =>
    simp only
    generalize (if det then e.addNull else e.addEncoded payload) = e2
    generalize (if det then payload else .nil) = pl
    obtain ⟨n, henc⟩ := encSig_ctx (cfg := cfg) (C := C) (m := { me with protectedParams := pp })
      (aad := aad) (pl := pl) (e2 := e2)
    generalize encodeSignatureInternal cfg C _ aad pl e2 = q at henc ⊢
    obtain ⟨r, m2, e3⟩ := q
    simp only at henc
    subst henc
    cases r with
    | error x => exact ⟨_, _, rfl⟩
    | ok u =>
      simp only
      split
      · exact ⟨_, _, rfl⟩
      · exact ⟨_, _, rfl⟩
      · split <;> exact ⟨_, _, rfl⟩

/-- EdDSA signing of a message whose first three elements fit. -/
theorem sign_eddsa_run {cfg : Config} {C : Crypto} {me : SignCtx} {det : Bool} {payload aad : UB}
    {w : Bytes} {out : Mem} (hpre : SignPre cfg me) (hpay : PayArg det out.isNull payload w)
    (hH : det = true ∨ (tagPart me ++ hdrBytes cfg me).length < maxStart)
    (hcap : (preSig cfg me det w).length ≤ out.cap)
    (halg : me.alg = algEDDSA) (hsc : hasFlag me.flags optShortCircuit = false) (ha : aad.wf)
    (hx : out.isNull = true → me.aux.isNull = true) :
    (me.aux.cap < (Spec.sigStructure (protMap me.alg) aad.bytes w).length →
      (signAadInternal cfg C me det payload aad out).1 = .error .auxiliaryBufferSize ∧
      (signAadInternal cfg C me det payload aad out).2.1.auxSize = me.auxSize) ∧
    ((Spec.sigStructure (protMap me.alg) aad.bytes w).length ≤ me.aux.cap →
      (signAadInternal cfg C me det payload aad out).2.1.auxSize =
        (Spec.sigStructure (protMap me.alg) aad.bytes w).length ∧
      (∀ k, placeOf out.cap out.isNull (preSig cfg me det w).length = .room k →
        me.aux.isNull = true →
        (signAadInternal cfg C me det payload aad out).1 = .error .needAuxiliaryBuffer)) := by
  have hcfg : cfg.disableEDDSA = false := by
    have := hpre.alg
    rw [halg] at this
    cases hq : cfg.disableEDDSA with
    | false => rfl
    | true =>
      unfold sigAlgSupported at this
      rw [hq] at this
      simp [algEDDSA, algES256, algES384, algES512, algPS256, algPS384, algPS512] at this
  obtain ⟨-, h2⟩ := sign_run cfg C me det payload aad w out hpre hpay hH
  obtain ⟨pp, hpp, h2⟩ := h2 hcap
  rw [signDispatch_eddsa (me := { me with protectedParams := pp }) hcfg halg hsc ha hx] at h2
  by_cases hc : me.aux.cap < (Spec.sigStructure (protMap me.alg) aad.bytes w).length
  · rw [if_pos hc] at h2
    obtain ⟨e, h2⟩ := h2
    rw [h2]
    exact ⟨fun _ => ⟨rfl, rfl⟩, fun h => absurd hc (by omega)⟩
  · rw [if_neg hc] at h2
    refine ⟨fun h => absurd h hc, fun _ => ?_⟩
    constructor
    · revert h2
      generalize (match placeOf out.cap out.isNull (preSig cfg me det w).length with
        | .null => (C.sigSize me.alg me.key).map UB.null
        | .room k => if me.aux.isNull then .error .needAuxiliaryBuffer
            else (C.signEddsa me.key (Spec.sigStructure (protMap me.alg) aad.bytes w) k).map UB.data)
        = r
      intro h2
      cases r with
      | error x =>
        obtain ⟨e, h2⟩ := h2
        rw [h2]
      | ok s =>
        obtain ⟨e, r, h2, -⟩ := h2
        rw [h2]
    · intro k hk hn
      rw [hk] at h2
      simp only [hn, if_true] at h2
      obtain ⟨e, h2⟩ := h2
      rw [h2]

end TCose
