import Verif.Props.TwoStep

/-!
# What signing calls depend on in the adapter
-/

namespace TCose
open Enc (PRef Place)

/-- The adapter with other signing functions. -/
def Crypto.signingWith (C : Crypto) (s : Int → Key → Bytes → Nat → Except Err Bytes)
    (t : Key → Bytes → Nat → Except Err Bytes) : Crypto :=
  { C with sign := s, signEddsa := t }

variable {cfg : Config} {C : Crypto} {s : Int → Key → Bytes → Nat → Except Err Bytes}
  {t : Key → Bytes → Nat → Except Err Bytes} {me : SignCtx} {aad : UB}

/-- The signing procedures use the signing functions for the text or its hash only, and not at all
when there is no place for the signature. -/
theorem signDispatch_congr {D : Int → Bytes → Bytes} (hD : Spec.StreamHash C D) {p a w : UB}
    {place : Place}
    (hw : place ≠ .null → p.wf ∧ a.wf ∧ w.wf)
    (hs : place ≠ .null → hasFlag me.flags optShortCircuit = false ∨ cfg.disableShortCircuit = true →
      me.alg ≠ algEDDSA ∨ cfg.disableEDDSA = true → ∀ hal n, Spec.hashOf me.alg = some hal →
      s me.alg me.key (D hal (Spec.sigStructure p.bytes a.bytes w.bytes)) n =
        C.sign me.alg me.key (D hal (Spec.sigStructure p.bytes a.bytes w.bytes)) n)
    (ht : place ≠ .null → hasFlag me.flags optShortCircuit = false ∨ cfg.disableShortCircuit = true →
      me.alg = algEDDSA → ∀ n,
      t me.key (Spec.sigStructure p.bytes a.bytes w.bytes) n =
        C.signEddsa me.key (Spec.sigStructure p.bytes a.bytes w.bytes) n) :
    signDispatch cfg (C.signingWith s t) me p a w place = signDispatch cfg C me p a w place := by
  have hc : createTbsHash cfg (C.signingWith s t) me.alg p a w (maxHashSize cfg) =
      createTbsHash cfg C me.alg p a w (maxHashSize cfg) := by
    rw [createTbsHash_eq, createTbsHash_eq]
    split
    · rfl
    · have hh : (C.signingWith s t).hashStart (hashAlgOfSigAlg cfg me.alg) =
          C.hashStart (hashAlgOfSigAlg cfg me.alg) := rfl
      rw [hh]
      cases C.hashStart (hashAlgOfSigAlg cfg me.alg) with
      | error x => rfl
      | ok h0 => rfl
  unfold signDispatch
  split
  · unfold signShortCircuit
    rw [hc]
  rename_i h1
  have h1 : hasFlag me.flags optShortCircuit = false ∨ cfg.disableShortCircuit = true := by
    cases hq : hasFlag me.flags optShortCircuit
    · exact .inl rfl
    · cases hc : cfg.disableShortCircuit
      · exact absurd (by simp [hq, hc]) h1
      · exact .inr rfl
  split
  · rename_i h2
    have h2 : me.alg = algEDDSA := by
      simp only [Bool.and_eq_true, beq_iff_eq] at h2
      exact h2.2
    unfold signEddsa
    cases place with
    | null => rfl
    | room n =>
      obtain ⟨q1, q2, q3⟩ := hw (by simp)
      have hrun := createTbs_run me.aux (UB.wf_src q1 _) (UB.wf_src q2 _) (UB.wf_src q3 _)
      rw [hrun]
      split
      · rfl
      · rfl
      · rename_i tbs ub hh
        simp only
        split
        · rfl
        · rename_i hn
          have hb : tbs.bytes = Spec.sigStructure p.bytes a.bytes w.bytes := by
            injection hh with hh _
            split at hh
            · cases hh
            · injection hh with hh
              rw [← hh]
              cases hm : me.aux with
              | null k => simp [hm, Mem.isNull] at hn
              | buf b => rfl
          rw [hb]
          simp only [Crypto.signingWith]
          rw [ht (by simp) h1 h2 n]
  · rename_i h2
    have h2 : me.alg ≠ algEDDSA ∨ cfg.disableEDDSA = true := by
      cases hc : cfg.disableEDDSA
      · left
        intro h
        exact h2 (by simp [hc, h])
      · exact .inr rfl
    unfold signDefault
    rw [hc]
    cases hh : createTbsHash cfg C me.alg p a w (maxHashSize cfg) with
    | error x => rfl
    | ok d =>
      cases place with
      | null => rfl
      | room n =>
        obtain ⟨q1, q2, q3⟩ := hw (by simp)
        obtain ⟨hal, g1, g2⟩ := createTbsHash_ok hD q1 q2 q3 hh
        simp only [Crypto.signingWith]
        rw [g2, hs (by simp) h1 h2 hal n g1]

/-- Encoder errors are seen before the signature is made. -/
theorem encSig_congr_err {dp : UB} {e : Enc} {C' : Crypto}
    (h : (closePayload dp e).1.errState ≠ .ok) :
    encodeSignatureInternal cfg C' me aad dp e = encodeSignatureInternal cfg C me aad dp e := by
  unfold encodeSignatureInternal
  generalize closePayload dp e = q at h ⊢
  obtain ⟨e2, pay⟩ := q
  simp only [] at h ⊢
  cases hs : e2.errState with
  | ok => exact absurd hs h
  | tooSmall => rfl
  | other y => rfl

/-- Making the signature with one adapter and with another, in the situation of `encSig_run`. -/
theorem encSig_congr {cap : Nat} {nul : Bool} {e : Enc} {o1 body pm rest : Bytes} {ns : List Nest}
    {C' : Crypto} {dp pay : UB}
    (hc : (closePayload dp e).2 = pay)
    (h : Rel cap nul (closePayload dp e).1 ⟨o1 ++ body, none, ⟨.arr, o1.length, 3⟩ :: ns⟩)
    (hs : (closePayload dp e).1.small = false)
    (hbody : body = bstrBytes pm ++ rest) (hl : (encodeHead 2 pm.length).length = 1)
    (hpp : me.protectedParams = if nul then .null pm.length else .at (o1.length + 1) pm.length)
    (hd : signDispatch cfg C' me (seen nul pm) aad pay (placeOf cap nul (o1 ++ body).length) =
      signDispatch cfg C me (seen nul pm) aad pay (placeOf cap nul (o1 ++ body).length)) :
    encodeSignatureInternal cfg C' me aad dp e = encodeSignatureInternal cfg C me aad dp e := by
  obtain ⟨g1, g2, g3, g4⟩ := h.good hs
  have herr : (closePayload dp e).1.errState = .ok := by
    simp [Enc.errState, hs, g2]
  unfold encodeSignatureInternal
  rw [← hc] at hd
  generalize closePayload dp e = q at h hs hc g1 g2 g3 g4 herr hd ⊢
  obtain ⟨e1, p1⟩ := q
  simp only [] at h hs hc g1 g2 g3 g4 herr hd ⊢
  rw [herr]
  simp only [Enc.openBytes]
  have hop := h.openLevel_rel .openB
  have hops : (e1.openLevel .openB).small = false := by rw [Enc.openLevel_small]; exact hs
  have hder : (e1.openLevel .openB).deref me.protectedParams = seen nul pm := by
    rw [hpp]
    exact deref_prot hop hops hl (rest := rest) (by rw [Ideal.openLevel_out, hbody])
  rw [hder, h.outPlace_eq, g1, hd]

theorem sign_congr_err {det : Bool} {payload : UB} {out : Mem} {C' : Crypto}
    (h : ∀ me1 e0, encodeParametersInternal cfg me det (Enc.init out) = (.ok (), me1, e0) →
      (closePayload (if det then payload else .nil)
        (if det then e0.addNull else e0.addEncoded payload)).1.errState ≠ .ok) :
    signAadInternal cfg C' me det payload aad out = signAadInternal cfg C me det payload aad out := by
  unfold signAadInternal
  cases hp : encodeParametersInternal cfg me det (Enc.init out) with
  | mk r rest =>
    obtain ⟨me1, e0⟩ := rest
    cases r with
    | error x => rfl
    | ok u =>
      simp only
      rw [encSig_congr_err (C := C) (h me1 e0 hp)]

theorem prot_head (alg : Int) : (encodeHead 2 (protMap alg).length).length = 1 := by
  have := Ideal.protMap_length_le alg
  unfold encodeHead
  rw [if_pos (by omega)]
  rfl

theorem placeOf_null (cap n : Nat) : placeOf cap true n = .null := by
  unfold placeOf
  simp

/-- A one-call signing function with one adapter and with another that signs the same text alike. -/
theorem sign_congr {D : Int → Bytes → Bytes} (hD : Spec.StreamHash C D) {det : Bool} {payload : UB}
    {out : Mem} (hpw : payload.wf) (haw : aad.wf)
    (hs : hasFlag me.flags optShortCircuit = false → me.alg ≠ algEDDSA → out.isNull = false →
      ∀ hal n, Spec.hashOf me.alg = some hal →
      s me.alg me.key (D hal (Spec.sigStructure (protMap me.alg) aad.bytes payload.bytes)) n =
        C.sign me.alg me.key (D hal (Spec.sigStructure (protMap me.alg) aad.bytes payload.bytes)) n)
    (ht : hasFlag me.flags optShortCircuit = false → me.alg = algEDDSA → out.isNull = false → ∀ n,
      t me.key (Spec.sigStructure (protMap me.alg) aad.bytes payload.bytes) n =
        C.signEddsa me.key (Spec.sigStructure (protMap me.alg) aad.bytes payload.bytes) n) :
    signAadInternal cfg (C.signingWith s t) me det payload aad out =
      signAadInternal cfg C me det payload aad out := by
  by_cases hpre : SignPre cfg me
  rotate_left
  · refine sign_congr_err fun me1 e0 h => ?_
    exact absurd (params_ok_pre (det := det) (e := Enc.init out) (by rw [h])) hpre
  have hsc : hasFlag me.flags optShortCircuit = false ∨ cfg.disableShortCircuit = true →
      hasFlag me.flags optShortCircuit = false := by
    rintro (h | h)
    · exact h
    · cases hq : hasFlag me.flags optShortCircuit
      · rfl
      · exact absurd ⟨hq, h⟩ hpre.sc
  have hed : me.alg ≠ algEDDSA ∨ cfg.disableEDDSA = true → me.alg ≠ algEDDSA := by
    rintro (h | h) he
    · exact h he
    · have := hpre.alg
      rw [he] at this
      unfold sigAlgSupported at this
      rw [h] at this
      simp [algEDDSA, algES256, algES384, algES512, algPS256, algPS384, algPS512] at this
  by_cases hH : det = true ∨ (tagPart me ++ hdrBytes cfg me).length < Enc.maxStart
  rotate_left
  · refine sign_congr_err fun me1 e0 h => ?_
    have hdet : det = false := by
      cases det
      · rfl
      · exact absurd (.inl rfl) hH
    subst hdet
    obtain ⟨pp, e0', henc, hrel, hpp⟩ := params_ok (o := []) (ns := []) cfg me false
      (Rel.init_rel out) trivial (by simp) (by simp [Enc.maxStart]) hpre.alg hpre.sc hpre.ct
    rw [h] at henc
    cases henc
    have hhdr : hdrOut cfg me [] = tagPart me ++ hdrBytes cfg me := by
      simp [hdrOut, o1, tagPart, hdrBytes]
    simp only [Bool.false_eq_true, if_false] at hrel
    rw [hhdr] at hrel
    have herr := Ideal.openLevel_big (o := tagPart me ++ hdrBytes cfg me)
      (ns := ⟨.arr, (o1 me []).length, 2⟩ :: bumpN []) .bstr ⟨by simp, by simp⟩
      (Nat.le_of_not_lt fun hh => hH (.inr hh))
    have h2 := hrel.addEncoded_rel (UB.wf_src hpw _)
    have hsome : (Ideal.bstrWrap ⟨tagPart me ++ hdrBytes cfg me, none,
        ⟨.arr, (o1 me []).length, 2⟩ :: bumpN []⟩).err.isSome := by
      rw [Ideal.bstrWrap, herr]; rfl
    rw [Ideal.addEncoded, Ideal.addItem_err hsome] at h2
    have h3 := h2.closeBstr_rel
    rw [Ideal.closeBstr, Ideal.closeLevel_err hsome] at h3
    exact h3.errState_ne_ok hsome
  by_cases hnull : det = true ∧ payload.isNull = true
  · refine sign_congr_err fun me1 e0 h => ?_
    obtain ⟨rfl, hn⟩ := hnull
    obtain ⟨pp, e0', henc, hrel, hpp⟩ := params_ok (o := []) (ns := []) cfg me true
      (Rel.init_rel out) trivial (by simp) (by simp [Enc.maxStart]) hpre.alg hpre.sc hpre.ct
    rw [h] at henc
    cases henc
    simp only [if_true] at hrel ⊢
    have h2 := hrel.addNull_rel
    rw [Ideal.addNull, Ideal.addItem_cons (by decide) (by decide)] at h2
    have h3 := h2.closeBstr_rel
    unfold closePayload
    rw [if_pos hn]
    refine Rel.errState_ne_ok h3 ?_
    simp [Ideal.closeBstr, Ideal.closeLevel]
  have hpay : PayArg det out.isNull payload payload.bytes := by
    unfold PayArg
    cases det with
    | false => exact UB.wf_src hpw _
    | true =>
      cases payload with
      | data b => rfl
      | null n => exact absurd ⟨rfl, rfl⟩ hnull
  obtain ⟨pp, dp, e1, hsign, hst1, hst2⟩ :=
    sign_stage_all cfg me det payload aad payload.bytes out hpre hpay hH
  rw [hsign, hsign]
  unfold signTail
  have key : encodeSignatureInternal cfg (C.signingWith s t) { me with protectedParams := pp } aad dp e1 =
      encodeSignatureInternal cfg C { me with protectedParams := pp } aad dp e1 := by
    cases hsm : (closePayload dp e1).1.small with
    | true =>
      refine encSig_congr_err ?_
      simp [Enc.errState, hsm]
    | false =>
      obtain ⟨h1, h2⟩ := hst2 hsm
      refine encSig_congr (pm := protMap me.alg)
        (rest := unprotBytes (kidArg me).bytes (ctArg cfg me) ++ payPart det payload.bytes)
        h1 hst1 hsm (by simp only [hdrBytes, List.append_assoc]) (prot_head _) (by
          have h2 : PPok out.isNull me [] pp := h2
          rw [PPok] at h2
          rw [show (o1 me []) = tagPart me by simp [o1, tagPart]] at h2
          exact h2) ?_
      cases hnul : out.isNull with
      | true =>
        rw [placeOf_null]
        exact signDispatch_congr hD (fun h => absurd rfl h) (fun h => absurd rfl h)
          (fun h => absurd rfl h)
      | false =>
        have hps : paySeen det false payload.bytes = .data payload.bytes := by cases det <;> rfl
        rw [hps]
        exact signDispatch_congr hD (fun _ => ⟨rfl, haw, rfl⟩)
          (fun _ a b => hs (hsc a) (hed b) hnul) (fun _ a b => ht (hsc a) b hnul)
  rw [key]

end TCose
