import Verif.Lemmas.SignSpec
import Verif.Lemmas.SignOne

/-! Helper lemmas: all outcomes of one-call signing. -/

namespace TCose
open Enc (PRef Place maxStart)

/-! ## Early refusals -/

theorem params_unsupported {cfg : Config} {me : SignCtx} {det : Bool} {e : Enc}
    (h : sigAlgSupported cfg me.alg = false) :
    encodeParametersInternal cfg me det e = (.error .unsupportedSigningAlg, me, e) := by
  unfold encodeParametersInternal; rw [if_pos (by simp [h])]

theorem params_scDisabled {cfg : Config} {me : SignCtx} {det : Bool} {e : Enc}
    (h : sigAlgSupported cfg me.alg = true)
    (hs : hasFlag me.flags optShortCircuit = true) (hd : cfg.disableShortCircuit = true) :
    (encodeParametersInternal cfg me det e).1 = .error .shortCircuitSigDisabled := by
  unfold encodeParametersInternal
  rw [if_neg (by simp [h])]
  simp only []
  rw [if_pos ⟨hs, hd⟩]

theorem params_bothCt {cfg : Config} {me : SignCtx} {det : Bool} {e : Enc}
    (h : sigAlgSupported cfg me.alg = true)
    (hs : ¬ (hasFlag me.flags optShortCircuit = true ∧ cfg.disableShortCircuit = true))
    (hc : cfg.disableContentType = false) (hu : me.contentTypeUint ≠ emptyContentType)
    (ht : me.contentTypeTstr ≠ none) :
    (encodeParametersInternal cfg me det e).1 = .error .duplicateParameter := by
  unfold encodeParametersInternal
  rw [if_neg (by simp [h])]
  simp only []
  rw [if_neg hs]
  unfold addUnprotected
  simp only [hc, Bool.false_eq_true, if_false]
  rw [if_pos ⟨hu, ht⟩]

theorem ctArg_both {cfg : Config} {me : SignCtx} : ctArg cfg me = .both ↔
    cfg.disableContentType = false ∧ me.contentTypeUint ≠ emptyContentType ∧
      me.contentTypeTstr ≠ none := by
  unfold ctArg
  by_cases hd : cfg.disableContentType
  · simp [hd]
  · simp only [hd, Bool.false_eq_true, if_false]
    by_cases hu : me.contentTypeUint = emptyContentType
    · simp only [hu, ne_eq, not_true_eq_false, if_false]
      cases me.contentTypeTstr <;> simp
    · simp only [hu, ne_eq, not_false_eq_true, if_true]
      cases me.contentTypeTstr <;> simp

theorem params_ok_pre {cfg : Config} {me : SignCtx} {det : Bool} {e : Enc}
    (h : (encodeParametersInternal cfg me det e).1 = .ok ()) : SignPre cfg me := by
  have halg : sigAlgSupported cfg me.alg = true := by
    cases hs : sigAlgSupported cfg me.alg with
    | true => rfl
    | false => rw [params_unsupported hs] at h; cases h
  have hsc : ¬ (hasFlag me.flags optShortCircuit = true ∧ cfg.disableShortCircuit = true) := by
    intro ⟨h1, h2⟩
    rw [params_scDisabled halg h1 h2] at h; cases h
  refine ⟨halg, hsc, ?_⟩
  intro hb
  obtain ⟨b1, b2, b3⟩ := ctArg_both.mp hb
  rw [params_bothCt halg hsc b1 b2 b3] at h; cases h

theorem sign_ok_pre {cfg : Config} {C : Crypto} {me : SignCtx} {det : Bool} {payload aad : UB}
    {out : Mem} {r : UB} (h : (signAadInternal cfg C me det payload aad out).1 = .ok r) :
    SignPre cfg me := by
  cases hp : (encodeParametersInternal cfg me det (Enc.init out)).1 with
  | ok u => exact params_ok_pre hp
  | error x => rw [sign_error_pre hp] at h; cases h

/-! ## Errors recorded by the encoder -/

theorem Rel.errState_ne_ok {cap : Nat} {nul : Bool} {e : Enc} {a : Ideal} (h : Rel cap nul e a)
    (ha : a.err.isSome) : e.errState ≠ .ok := by
  unfold Enc.errState
  by_cases hs : e.small = true
  · simp [hs]
  · have hs : e.small = false := by simpa using hs
    obtain ⟨_, g2, _⟩ := h.good hs
    rw [if_neg (by simp [hs])]
    rw [← g2] at ha
    cases he : e.err with
    | none => rw [he] at ha; cases ha
    | some x => simp

theorem encSig_err {cfg : Config} {C : Crypto} {me : SignCtx} {aad dp : UB} {e : Enc}
    (h : (closePayload dp e).1.errState ≠ .ok) :
    ∃ x, (encodeSignatureInternal cfg C me aad dp e).1 = .error x := by
  unfold encodeSignatureInternal
  generalize closePayload dp e = q at h ⊢
  obtain ⟨e2, pay⟩ := q
  simp only [] at h ⊢
  cases hs : e2.errState with
  | ok => exact absurd hs h
  | tooSmall => exact ⟨_, rfl⟩
  | other y => exact ⟨_, rfl⟩

theorem sign_encSig_err {cfg : Config} {C : Crypto} {me me1 : SignCtx} {det : Bool} {payload aad : UB}
    {out : Mem} {e0 : Enc} (henc : encodeParametersInternal cfg me det (Enc.init out) = (.ok (), me1, e0))
    (h : ∃ x, (encodeSignatureInternal cfg C me1 aad (if det then payload else .nil)
        (if det then e0.addNull else e0.addEncoded payload)).1 = .error x) :
    ∃ x, (signAadInternal cfg C me det payload aad out).1 = .error x := by
  unfold signAadInternal
  rw [henc]
  simp only []
  obtain ⟨x, hx⟩ := h
  generalize encodeSignatureInternal cfg C me1 aad (if det then payload else .nil)
        (if det then e0.addNull else e0.addEncoded payload) = q at hx ⊢
  obtain ⟨r, m2, e2⟩ := q
  simp only [] at hx
  subst hx
  exact ⟨x, rfl⟩

/-- An inline payload after headers that end beyond the offset limit is always
refused. -/
theorem sign_big {cfg : Config} {C : Crypto} {me : SignCtx} {payload aad : UB} {w : Bytes}
    {out : Mem} (hpre : SignPre cfg me) (hpay : Src out.isNull payload w)
    (hH : maxStart ≤ (tagPart me ++ hdrBytes cfg me).length) :
    ∃ x, (signAadInternal cfg C me false payload aad out).1 = .error x := by
  obtain ⟨pp, e0, henc, hrel, hpp⟩ := params_ok (o := []) (ns := []) cfg me false
    (Rel.init_rel out) trivial (by simp) (by simp [maxStart]) hpre.alg hpre.sc hpre.ct
  have hhdr : hdrOut cfg me [] = tagPart me ++ hdrBytes cfg me := by
    simp [hdrOut, o1, tagPart, hdrBytes]
  simp only [Bool.false_eq_true, if_false] at hrel
  rw [hhdr] at hrel
  have herr := Ideal.openLevel_big (o := tagPart me ++ hdrBytes cfg me)
    (ns := ⟨.arr, (o1 me []).length, 2⟩ :: bumpN []) .bstr ⟨by simp, by simp⟩ hH
  have h2 := hrel.addEncoded_rel hpay
  have hsome : (Ideal.bstrWrap ⟨tagPart me ++ hdrBytes cfg me, none,
      ⟨.arr, (o1 me []).length, 2⟩ :: bumpN []⟩).err.isSome := by
    rw [Ideal.bstrWrap, herr]; rfl
  rw [Ideal.addEncoded, Ideal.addItem_err hsome] at h2
  have h3 := h2.closeBstr_rel
  rw [Ideal.closeBstr, Ideal.closeLevel_err hsome] at h3
  exact sign_encSig_err henc (encSig_err (h3.errState_ne_ok hsome))

/-- Detached signing with a NULL payload is always refused. -/
theorem sign_detached_null {cfg : Config} {C : Crypto} {me : SignCtx} {n : Nat} {aad : UB}
    {out : Mem} (hpre : SignPre cfg me) :
    ∃ x, (signAadInternal cfg C me true (.null n) aad out).1 = .error x := by
  obtain ⟨pp, e0, henc, hrel, hpp⟩ := params_ok (o := []) (ns := []) cfg me true
    (Rel.init_rel out) trivial (by simp) (by simp [maxStart]) hpre.alg hpre.sc hpre.ct
  simp only [if_true] at hrel
  have h2 := hrel.addNull_rel
  rw [Ideal.addNull, Ideal.addItem_cons (by decide) (by decide)] at h2
  have h3 := h2.closeBstr_rel
  refine sign_encSig_err henc (encSig_err ?_)
  refine Rel.errState_ne_ok h3 ?_
  simp [Ideal.closeBstr, Ideal.closeLevel]

/-- No octets are read through a NULL pointer by the signing procedures. -/
theorem signDispatch_ub {cfg : Config} {C : Crypto} {me : SignCtx} {p a w : UB} {pb ab wb : Bytes}
    (hp : Src me.aux.isNull p pb) (ha : Src me.aux.isNull a ab) (hw : Src me.aux.isNull w wb)
    (place : Place) : (signDispatch cfg C me p a w place).2.2 = false := by
  unfold signDispatch
  split
  · rfl
  · split
    · unfold signEddsa
      have h1 := createTbs_run me.aux hp ha hw
      rw [h1]
      split
      · rename_i h; injection h with _ h; exact h.symm
      · rename_i h; injection h with _ h; exact h.symm
      · rename_i h; injection h with _ h; subst h
        cases place with
        | null => rfl
        | room n => simp only []; split <;> rfl
    · rfl

theorem UB.wf_data (b : Bytes) : (UB.data b).wf := rfl

/-- Successful signing into a real buffer. -/
theorem sign_buf_run {cfg : Config} {C : Crypto}
    (hfit : Spec.SignFits C) {me me' : SignCtx} {det : Bool} {payload aad : UB}
    (hpw : payload.wf) (haw : aad.wf) {m : Bytes} {r : UB} {e' : Enc}
    (h : signAadInternal cfg C me det payload aad (.buf m) = (.ok r, me', e')) :
    SignPre cfg me ∧ ∃ sig,
      r = .data (Spec.coseSign1 (!hasFlag me.flags optOmitTag) me.alg (specKid me) (specCt cfg me)
          (if det then none else some payload.bytes) sig).enc ∧
      r.len ≤ m.length ∧ e'.ub = false ∧ e'.mem.cap = m.length ∧
      SigRun cfg C me (.data (Spec.protectedHeader me.alg)) aad (.data payload.bytes) sig := by
  have hpre : SignPre cfg me := sign_ok_pre (r := r) (by rw [h])
  refine ⟨hpre, ?_⟩
  have hpay : PayArg det (Mem.buf m).isNull payload payload.bytes := by
    unfold PayArg
    cases det with
    | false => exact UB.wf_src hpw _
    | true =>
      cases payload with
      | data b => rfl
      | null n =>
        obtain ⟨x, hx⟩ := sign_detached_null (C := C) (n := n) (aad := aad) (out := .buf m) hpre
        rw [h] at hx; cases hx
  have hH : det = true ∨ (tagPart me ++ hdrBytes cfg me).length < maxStart := by
    cases det with
    | true => exact .inl rfl
    | false =>
      refine .inr (Nat.lt_of_not_le fun hh => ?_)
      obtain ⟨x, hx⟩ := sign_big (C := C) (aad := aad) (out := .buf m) hpre
        (by simpa [PayArg] using hpay) hh
      rw [h] at hx; cases hx
  obtain ⟨h1, h2⟩ := sign_run cfg C me det payload aad payload.bytes (.buf m) hpre hpay hH
  have hcap : (preSig cfg me det payload.bytes).length ≤ (Mem.buf m).cap := by
    refine Nat.le_of_not_lt fun hh => ?_
    obtain ⟨e2, m2, h3⟩ := h1 hh
    rw [h] at h3; cases h3
  obtain ⟨pp, hpp, h2⟩ := h2 hcap
  have hpl : placeOf (Mem.buf m).cap (Mem.buf m).isNull (preSig cfg me det payload.bytes).length
      = placeOf m.length false (preSig cfg me det payload.bytes).length := rfl
  have hsn : ∀ b, seen (Mem.buf m).isNull b = .data b := fun _ => rfl
  have hps : (paySeen det (Mem.buf m).isNull payload.bytes) = .data payload.bytes := by
    cases det <;> rfl
  rw [hpl, hsn, hps] at h2
  cases hdis : signDispatch cfg C { me with protectedParams := pp } (.data (protMap me.alg)) aad
      (.data payload.bytes) (placeOf m.length false (preSig cfg me det payload.bytes).length) with
  | mk res rest =>
    obtain ⟨m2, ub⟩ := rest
    rw [hdis] at h2
    cases res with
    | error x =>
      obtain ⟨e2, h2⟩ := h2
      rw [h] at h2; cases h2
    | ok sig =>
      obtain ⟨e2, r2, h3, h4⟩ := h2
      rw [h] at h3
      simp only [Prod.mk.injEq] at h3
      obtain ⟨h31, h32, h33⟩ := h3
      subst h33
      unfold placeOf at hdis
      simp only [Bool.false_eq_true, if_false] at hdis
      split at hdis
      · -- there was room
        rename_i hroom
        obtain ⟨s, hs1, hs2, hs3, hs4⟩ := signDispatch_room hfit
          (me := { me with protectedParams := pp }) (UB.wf_data _) haw (UB.wf_data _)
          (by simpa using hpre.sc) (fun he => by
            have ha := hpre.alg
            simp only [] at he
            simp only [sigAlgSupported, he] at ha
            simpa [algEDDSA, algES256, algES384, algES512, algPS256, algPS384, algPS512] using ha)
          hdis
        subst hs1
        obtain ⟨g1, g2, g3, g4, g5⟩ := h4 s (.inl ⟨rfl, rfl, hs2⟩) hs3
        have hlt : (preSig cfg me det payload.bytes).length < maxStart := by
          refine Nat.lt_of_not_le fun hh => ?_
          obtain ⟨x, hx⟩ := g4 hh
          rw [hx] at h31; cases h31
        have hle : (msgBytes cfg me det payload.bytes s).length ≤ (Mem.buf m).cap := by
          refine Nat.le_of_not_lt fun hh => ?_
          rw [g3 hh hlt] at h31; cases h31
        have hr := g5 hle hlt
        rw [← h31, hsn] at hr
        injection hr with hr
        refine ⟨s, ?_, ?_, g1, g2, ?_⟩
        · rw [hr, msgBytes_spec hpre.ct]
        · rw [hr]; exact hle
        · rw [protectedHeader_eq]; exact hs4
      · rename_i hroom
        have hsh := signDispatch_shape hdis
        obtain ⟨n, hn⟩ := hsh
        have hub := signDispatch_ub (cfg := cfg) (C := C) (me := { me with protectedParams := pp })
          (Src.data _ (protMap me.alg)) (UB.wf_src haw _) (Src.data _ payload.bytes) .null
        rw [hdis] at hub
        simp only [Mem.cap] at hcap
        obtain ⟨g1, g2, g3, g4, g5⟩ := h4 (List.replicate n 0)
          (.inr ⟨by rw [hn]; simp, .inr (by simp only [Mem.cap]; omega)⟩) hub
        have hlt : (preSig cfg me det payload.bytes).length < maxStart := by
          refine Nat.lt_of_not_le fun hh => ?_
          obtain ⟨x, hx⟩ := g4 hh
          rw [hx] at h31; cases h31
        have := preSig_lt_msg cfg me det payload.bytes (List.replicate n 0)
        rw [g3 (by simp only [Mem.cap]; omega) hlt] at h31
        cases h31

/-- Successful signing into a real buffer. -/
theorem sign_buf_ok {cfg : Config} {C : Crypto} {D : Int → Bytes → Bytes} (hD : Spec.StreamHash C D)
    (hfit : Spec.SignFits C) {me me' : SignCtx} {det : Bool} {payload aad : UB}
    (hpw : payload.wf) (haw : aad.wf) {m : Bytes} {r : UB} {e' : Enc}
    (h : signAadInternal cfg C me det payload aad (.buf m) = (.ok r, me', e')) :
    SignPre cfg me ∧ ∃ sig,
      r = .data (Spec.coseSign1 (!hasFlag me.flags optOmitTag) me.alg (specKid me) (specCt cfg me)
          (if det then none else some payload.bytes) sig).enc ∧
      r.len ≤ m.length ∧ e'.ub = false ∧ e'.mem.cap = m.length ∧
      SigFor C D me (Spec.sigStructure (Spec.protectedHeader me.alg) aad.bytes payload.bytes) sig := by
  obtain ⟨h1, sig, h2, h3, h4, h5, h6⟩ := sign_buf_run hfit hpw haw h
  exact ⟨h1, sig, h2, h3, h4, h5, h6.sigFor hD (UB.wf_data _) haw (UB.wf_data _)⟩

end TCose
